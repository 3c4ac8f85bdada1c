/-
Generated by scripts/gen_xs.py: sums over the first 200 energies at all nodes.
-/

set_option autoImplicit false
set_option maxRecDepth 100000

namespace TNS.Data

def xsAcc1 : List (List Nat) := [
  [94093872792898050701465085515488410124377271845285878169780510852730064006024959264518379655116292367560652299443501580937068199015955358594304429371167364631507071228640429, 90822110296635215484100200981357093265303572457491903480525019110187706940471993559561395314270464102179734058019404624886680871531310460764479679275175023562621660932892189, 84618648656108941518441672230817097817557658794300045200042536497645589776379244809198616166302382128512886594079624003933303966592014857026047709660863640166673403293604654, 73463514550514035864799434576063235532632763907405870958290090581343775842763184544791840356374284356036989820554326388766637489015949139833035376289992857581180830302010346, 55400574047802028291591893330127497111534824826045861476756857644870402013186265865932785649230046617527609363807911647079214030325624451584671457211366435238789087283880472, 31576566264654716206825866003219347551184429004572973737909034967464582843689867900378640894498202337357466127752962408283512594776276868269625029733910747733801124232292701, 10357952244154059474423282805330181375086434994862920346542743925169646578948312266752695672756102023709319531114355777793068892023676343696401263519862388645968909779780126, 1167062783481938459562192614410174771437616778872062584917745030403681616941520634329974642297639257668605244303463275873483469182171493850296602966892277402060978842228199, 19143237177980822677427624327710222989435907937411228561325810305513999511333900982388923712499258388897552576366791989971900859484148068311472083223613234932271904103263],
  [94041022662619512719350464247967840357488678677609489953516366567239164284195659489369077009900761218263129944674691375808497459541605818549021735960888108588972401767367791, 90720145112536267652969509445109473770441506387590738914558443544022050260093474598643397476354150635135183689598029722644467652512727940035832571319890728991702563748502102, 84428870626715862276013337354427629467134872365622126098123538876686625867652809173924057979556255255691216797603033061088559107897981434389193445035814589169892402144080073, 73134773595988627376098728893076860003415752767001829911539555474710834241082159203970109517590782389645365557524766867192570677717859804449533314577001012641486778244981624, 54907124225145865268338050090469843743626979916181560799585344442036577347029098255045398255988286127997843198510430631618567582889874214813173463465903716257247912370190156, 31019586631144961289293644127009790221001425481475673361555453566556043849492650805702731040339687971910455845317531833699341325320737519324928136609478510190576418027926639, 10000112271958001581843853386661402556628527479670572092577573341078718988431906256548967357417234331459008729846228880473994590537066915956212352706086961790918785463441843, 1090179772905148059928550535208845831814293149647181235740644745115866658592669924807996943811106467203606566003965346650175816767519421144357054900198686746508568091530112, 16921468694754730724429326180305186331939320744238588037513414627186541051080197563207637065543539417286969168598928698428669185779615569017182243846210089652522900805312],
  [93988202469990262097189819882383650456048290722290062336215331494541874985622090872501360674552955823088861312525726608337924920781133479542508290931145535420049943306680019, 90618295384350048102796219190497084008324110082540195539899628319533384039870213115998202191307484406409087702829620874614347976756933389395051956553919635706400930730871332, 84239521900498337060029268154534667528222172578974263981009841847203874563050950787232582460208180572200778227003283458340056180526894171645520676457457838853073541547847965, 72807516676590348564450562944049148965795106822177073571927445391756836843954975769031999889486283003125939848969764593875699445285832911718312172759158794946238775022982952, 54418109720776548607420071540397792909558532986476832181403931026532333795589513344765919685773400785836088847237796814519824165314950604377491783204567290066985922856842488, 30472528493104545383474246401346033936197653083155132732444764483469878053813772156297589400522005690797987002328247383828472603855386087350012449264239988772092055663494972, 9654777175145413725263415235792521709838931504719621164666306394891362743768628003435126825013395041440942558702340612518206591605593359634094257423059690799315772804235427, 1018441919551625030137415497341995139441457678478319814207840105341251172555545509274022324495807034328539905907181908700425010877646534478125326936226614361924442566036534, 14965069950717534520200921962577946266306714103685624277473061254677308053106590825692404197883397545931931723364186377984218987358064238070297749099423289692616148540731],
  [93935412197928893057833097614746983731021915087594307308067242402515949816712913202531041439488051678224545009724617185636403420492777204630829623492361369462509481855919483, 90516560980393915911559388470768278028241132357334708397672258129774842500871350536737126294615847029603491561786762915966833167517993876239247646160188084059794132910275597, 84050601499187619013239359524838821945534296418326341135641620889901276816671812569441620804455668796947251114660194475753106502880587290583351018612861782441758959539132941, 72481737042889519138823909182356854279221401100055338994142717764370525196305395327943164839603908191116470858603184822429809006296243023403555432843071395244505101560843305, 53933490359659389805039538788377025433671145466067734705028184756325732298336523429369075955005754007113226280782208920364400622205762183757603893963522158792189886254162632, 29935213647357446500739840219181070132168256085455208749349921783980886152825186623749745890018850732120556328438755405750344575457500469097348552066450353926393323337268307, 9321505743943494707196977876876350621532294678234053334769596863905349801321242663535341349303128355598139975451199517135314934225501895164616049794741961503198578738788226, 951500369316186262694178452592448772664191440986048519319583295803069230251780302756383092219201494561642786945760763488951221020934664974632919180982473424302853842774026, 13241576273256031215107508574446453173470832971110545345526358654165700209586203847634355157879062950283044509030168323200324209711971518927980920749264459180104683653710],
  [93882651829363806504906637049159019030834079020308816172983705600076823127824932453047868081622345513374275412028271191874906847216525860790368959868510518168863687284225932, 90414941769136358072056318577784789345334207260329185061881114984091971403721012064533321366871882902765042394044532255899994462870052534838454493852659766422761158323105297, 83862108446758217363813316866874893450973858974973327058227807897744986453504899778855945591134215552293892598989253252140319824543827571436395974664674166777485411238524763, 72157427976349659043520422672211129004687738262274422908411406435708134100599689073109867415831754656469945324919569767684741059761416701604905852483501128517896431612231492, 53453226333076169439961106846650236638859490525019295515444748460723811849405566864493331761939180663597945321261301891595846225409304343442867721304832510427242236052325517, 29407467114224465432409531652760542785202773526086664498529018936025882508018789079053409961551264004400587855447000608338206178113223476988155386135432754539215162097304782, 8999872463267993931100777053725579630514791310687200144280308005772248979126713121701048806654962786291395647998256767071455129180287059857924747527903639396069079597785058, 889030182173274590311585653023219754778508730938683035231425468673294148481055700142370435965415429539520802258454458253459269579902328900053312930497173657107776153397277, 11722575107553491485768809443622804037301867939027029994355123280173864678833562951760293711993344204119732350712129978750107950780852948193725897987185103943553511362432],
  [93829921347233204362306459538943433905197470409113761078174193167212929244914264400690516350654070801209225295936530250762370634596153315823584066909995676002292412300411223, 90313437619196815108543181669613854102703973834656053186418720550083565978765284732289614623354941277525320873198175719836493367980810582631551721133162729632547350009173303, 83674041769422725377206714362842437866387452212641481808029523688613518717712718192400288870729915485990285594874524570187086488109971238066208502155240529935524117920706513, 71834582789185301407698093240681165719411603216746466501948345629445599764456127232545748516276570652177845367058902941688365516990743200153824600827370952443396770878450539, 52977278195265927859221733261118756380422781965852556768021980272589120966525449560611504134441962746016174200131230391881310439825105593099736102181167905356833308569902990, 28889117078856970109463431165687144122675304906855000765440700965080675386804055799005877412598241792821218492235978669416855951484704056001489262508782129365473031895124555, 8689466950518112127596529046415915696662293102194648878548037772233617213680426648078360519301201314034491093352431397492828053777037299446140265128176321406624459488035169, 830728677545856649753258247139248016347572379959296195192086798178110195436243881965615737173182274978283222930534827482654676492113813186519843844689919175679273322776440, 10383191644104938012596616500790494807946406155940051978932337549219671407694358740908940813509985792989689118317488456000048743346265817777411461266364532160355799170005],
  [93777220734485083916974249697320903354171968839880640353214561002818216885272703892380640715986910905101303656367273325171484602316028769156188270978651039768633790867864148, 90212048399345506895544868286083674265316552404612375517594139503551849631292763132870651684854199503682320090385684517850102168102824411440670685715054466298494649472015966, 83486400495626660289539278420817087908436044556044246019345351417897855545294062949051322175970392772527135117702095007353972765734397972316147908799995556201691408465858520, 71513194824220463083865124013674079614684149824178914175058373951730652574337576717333995338262015459791698244974494846612485613278077573626508287026315968393900376439671332, 52505606860096714439776005419724452782620351154232688913454177784199117943080168943893525741247578396085068200976035064124828389851839898176397429560961398670294044493537055, 28379994833644019600464070560276200652722021833675453674549337302336220132727303737097375496922470713642010395284553804034314913996675397487961615992936227154340273462977990, 8389893413632379518297422508218106494537761787994897087975138706198234663322040705648961845050990720780181283003098892121323937695185145808075269149008614342766947319190862, 776313895073200455616318929881077969553721678095896330644300923513021074715338465830886015485961816512893898752453500947077157954314812216282934662084757007898215016349284, 9201640677906054467147766167829811493122667922293314109674761536655782183647165150246346303280369133161543922737341602469396611038760112638502731115462478973173048764428],
  [93724549974077232164954119444560414430833977893332903137017573746891622858134966186122845382600127493960056794842738612065823150274311972690422393671777783811034492065598694, 90110773978503258678598695540307828392941534724363279975263549065206801051809645377872265156823236053690164792292702719228437466681079446112773268792758603800779251326297272, 83299183656043315194612649556701098066662238822038287417223438024403697685661415293937791202715244036948501666457088173948788088260842241397505463488695280219413011523858094, 71193257454747769721161776157308579163022107586844646974265811594287199870351947544401250757693546295825513397208450138275949610600031483265079700470427543083599688012774334, 52038173597768008858986251362742379203208003491141346832400192950446294209462052010416892340274096595724616389229859429188867177591368756700506353445764768421639486670315825, 27879934721673137261057633367193770989876877062510361248960490919082061343667828248624023813208185858808299453243577603404095804111310222662628621366222176256457621413822426, 8100770128671482687330312134126657015970006920177604936758751194934143642736298378504182851376231653738731616661348098329087114127892348860615004084521272560104236226704866, 725523162673894783743719100401799021968613638391494491190291459415943950215179538751559192280239145570084595963083168750034707364344204147660995200868563264809493567175357, 8158836067133322699947562989944527991361521590207296374427056752720816476095008415711107916952126923789497997858956670626978059957616738175265628425364609450633958623717],
  [93671909048977220160728244073582324907716216962894839464988362875752788917315798968605132048403056376433866656269408347418630020027886198861806095347402025675233523840710942, 90009614225741327296696891976134892345166803479599335802747358560999123242189558098179829275076718495424563890898477827349019204366727450472845295546157599309269471725204107, 83112390283568622856759957989119899970154939573844828670719016414545927987369327591366843696135177953659821338914208290295050959697711987749224684147588552026577782911027882, 70874764084388232333486654993935598217762024588645315922138271477681743815282876912273135516576887012300300137220348316258814973156693223901274574801008909297300812460332153, 51574940031543530469765354126400263486711179099273251651814078755743308679353637357054400204749398883560209833658613632481662877286442982624360786821874510687643878073650116, 27388774081225366719322191250583113301619442186862491533275580686761756861062574331579257271591261433548009856609740608160619575202832228410943786594928451235826088622730064, 7821728936220727620657421435782731557229174127416827589745350101711857336263216919613554682301422732026050953255181775986138324448869937621565462859812338934589106828056189, 678111764372935291163030699579386004476010457676992592723850571837816799948201332765114207794234345401227731455542337689392664860087240513570664645211336715526222496851086, 7238050295932253359385390480182561973719441075588843281725813348402400177748959483440474958433643778997997076759446614741181304457971161694404277639669191433395807071853],
  [93619297942162397369829460933938449038830206928432425413688782009002611975908532811043381313421077057909582547403797525912200995512317048822257654706936649889107796955408869, 89908569010281227606193049770350129169230331579691531572350446015880523469519863640432230379212671848326771746424961305183331650534523076309191660013867260750415882929140150, 82926019413316031421784477793351958130052015024516949616209725624193458180487572815947101928424646451109527146337470656890372050736487593674506414840439874404363332526691773, 70557708146951672336696043027843782915621792214087787293456183942384763164657563302562003200913279451163339232476972015239680453594767385597480034958125804430327786677138171, 51115868134514154514249094992818167822606199212383014843849307990674208896268772525426830816689153610948070516320825442157018183426195867894534463058741153124162823712704772, 26906353191285601805955644825459118335699217039563831492893138737331486210360793479010358163337523192290059245915391463671678996961704878065327582699756395716626567146207939, 7552414755930566197542304173468596307163251107528127097732683529387860356903961276762041038514335247503679558107522806214420110422830932461382017427733115005322287741819251, 633851700893513159873988545076043493465669936579652527200159066140523310012952282696374068184042579483432551726775889094266235489759798558376165916112062875398292921126834, 6424617631676317976151942428363312773603740190169298923761333195915900960342389351211799273537601014703173883567087865056183779959761459185614446216223619143183398574887],
  [93566716636619886024728922452159652492017679548313226463880378105542722797328499244912061348619204217273126692919650834094811888698170240786215981319757496679631944094566740, 89807638201494559105938009335851608665578126157398506683541501110618626072322489974882322411068822365434730928104618252243028916759166552286188870407255052700989395104938968, 82740070082611391998309401934301014321420716338594250989787254576717606210128216710489435747198871100655428957567177384221542077387351726440213060834127209286331506322060032, 70242083106297792043210723264601766595829254774524419918220393116679438219771342378323237287415532001152975240737946729227328222856816109897604944662842300860210945575937885, 50660920226390656523345675344016390069496580357446365311089176709570927939420874655166310423887551646645574957507931524718883117929428203826592158267133593312015983137539397, 26432515218049532342231656196151050065045714263025604824027464418968518670303087525082998415323441769286446768121350551091481782091745687076921899570292206299702279874063891, 7292485118538412689228686322135461071743674605745387409756631084009679757827361188204947824861913716030655076489381770548855866033716011230535626824739627901218106623256621, 592530536508201055411868939488684120115865916845516697829488245287732950918209693898412848963800613243223989411764372540085649507308941364666232506700145167885227218069084, 5705675221979053158992127050040353623095192139753209629243862860164514737532493320566692863922035021050788713841037492477642692221959839597488147840601098414167626293734],
  [93514165115346575483996896315840134910070857852561288955299664612396471534301688257362799829795214807907045569147776653346476462497199363597284843181503224299297392705634566, 89706821668902832763410915404060521009682951253004215683005354983632040836091415823491104415136557417530341224734567859203219714435696262201743144112638121486795158021010595, 82554541330987858081925406159743137091468633479541524144642054552283987618293316955538063823365860276737487462343815054083773455575126799156255643663548221529177839367027781, 69927882456197887616404592472966066753305411691677242692976349243814108155916224303825720367169466209069438682182632673848238145338430478538241269000049800357617607294260820, 50210058970326008838612880517659396693065891954965537864656236756846589564545943813567994231824345327248065990192734747061335491596859954332132537975978431060442887328457440, 25967106162408892004839790590512750970831576785339863620657502676577805242082875156076176166936597779915271928651062650381765999132247077716171503898395858589425398971319183, 7041609714738870031507499284596095408024996298299105607207412510578306181603522274732148335397953023664755623489382419527814728634084900344924965417929531598289768598015683, 553950326103230707728433274388242068081025255357122673134453126868566849042444918042053905143669109110912912459515926001164365941413438413268722922643361858687336421733651, 5069937218336357146407135105115324381841553911605277544742381068356728759757827140334774277316597160941711920150036546761740795743047085788584417709966823516416027914539],
  [93461643361349116594734806770401120058483287105033419122033073261808326792767998587089400563414102525643893356361566109712877494831230573988945650775862919809838276569414720, 89606119282177298041611457407245635243392321987875990074903510607628648653752965291036860645734217130146223258387485043200212617626371209443464018268942898838174501597421706, 82369432200180796794587144069633093110414355250554799088505725510300072884465147802944207713074810437217480664763598152506459997795861288977406774418054539430527486574072010, 69615099720197201501123548473177061575449294321749781083156446769322521808131040917029886071446931919209934617847125535679230853582975945172136260350575372454426228160078375, 49763247369766955757876065014264914522850223583076772098960251295761035997621028146725514240511213299918777734497694056032723183329751228654978509345657569716116713175814528, 25509974808397032415915242253208124221049865021656787013875083985067740647586340603128734992308779095160910354345720362252850294492768453071954262699235016059396707472163957, 6799469960292506015525591776732748404497638623629663168752141277328038271455477987297228901785954851447636675945119496771079365559818474901196232333841414961467175715834913, 517926616835996016362867963978552406277793206990642779504510965101919309140345940258739229197138433092121420559281877633981881067940300485284295369050841441948635636922916, 4507497656688577204259754938284348236414338302296018712392133400046063253721735183892599094364933287731477907940549615264051348708298840568963338975800259627739342603625],
  [93409151357643916058276612088253326269103564824850428403696413790010611712632861035469087078684779632033511691605015532534494274354634952201163854313250822964991100379555009, 89505530911138770126479580378401179294001940707789619801897753695715711327723988229491975949168752922110320728648017237607622100105344463618407693244773273393370762489708598, 82184741734122711911774138936699240490623541644894146921166987960091432612649782135600859490980806865899277080901933628450934242711703144927564220669361598849310410119933744, 69303728451477911360591956106080196783748976259500933027785338456225432860292557408844407821340412224986468991489964701084873574795895267737403371501017467558971483554312364, 49320448765334596347048531424433222979002283342621240848734948069573821483885201407742626089553678916899780719248979255844922062766502427835030720225789069463273425742324990, 25060972672577179277252279074064338650152639658408474704773446734054018006535167622777910874988027105667707232681955417081891225896246107387302399930228537186180404942590494, 6565758576785499087754125498133925669449818643486876344261238350310243071799381874852555026637996290970413350905337308972713106842293260078284725438002815552291751071733509, 484287519162115871762217731994015137805467019080014815841315244327177513506353039748610678040014312304658194570834136073198728533526032966770520814008143654309426312212817, 4009658383528137648535328889641164579392110730676729127130866530011593384489201649920361568222769696200245865971431558763625799577750353471239888403659159435174938031411],
  [93356689087257130799157614381669704749198125067040147121743385744188344284073939411292588935838925036859411989070375499882541664590925428332437931237800848223934865167941294, 89405056425757457354609225656985412677503210190230088134611680061655854118222910106252036768500035545093440800562932174272801389186548244315045210062303210256704288282585147, 82000468978938178649995710401283822176475352308052513364910741619550519797930904021275630788806781297335641570614659112439992498187298700735402081124648343367127617269460690, 68993762232722752563807759892446933776987539808357118175364800104803750390887216469801605741935275147378405335559312956428182163679783030662703190400087880492635874131529091, 48881626831733706477973602996476948346324280641009677170645285074969422115415343186458982426979487448337998090741857108149172304755957866335063747151485093875870695291307432, 24619953954356051896173819505048546035953269249148296284047515176370717990760985749299727725756817693422287721532876371014365590961022414932922616880252400201307545282899933, 6340179187473842991031381333115578441084950240503131201116257127598980108152270893966288502891414631709726476107079584390247651717886236997954731807731231335427348426720193, 452872842376506398969818934330233065120825165814998876232660059998431439197888751218471279898810587578367062472940074047243653628817436194230174145636390729713739854729541, 3568778800781840934714593756356757623801990744682657126795411022278901514042801128594852983000645629588200969256487378969034241290574784923180429179310750986284334600295],
  [93304256533224662337348799047483758346109116005982933150430936803245399356826661810257705897949695635678737323568077515922538764986699600960478283889706766807161074781848912, 89304695696152788841022933466705110551538607893147533972239720551417526914505735903704188855538261422862414043303228274946229911390193740048636037706652820578152901486633868, 81816612982938790187283596445239258827657126649780578664509862030054298547680767377325106007898113204620037263399693800161836544412555431466573099193134396966936785026227811, 68685194675979271281306322930274270955607496360220960175920934436165160792339463037908216410755099176389162289092181526712211398675034630779842953640428923752278340627701791, 48446745574690534145996311999051985571309045431610932017687438322199687572607519285471746377920587009494269522782964064372930173347062978990853219593775463888414640539602267, 24186775487205846950920085622890212990072921064763481903657006404366420019012381154293123173343969056120948200837712843297673452997025155628986781277332125361986292650414111, 6122445927666388705736541308744729946156129491917424645080111756531387378237679062024300085331023326374267376253387465136867403005207546986025451347475244101096740858306575, 423533290154943440622777158700622613527309652658295752973826428038766941364614265056458905614794989060022696253648349968898122531769273542915795875763986768406370887868678, 3178144623387711275277047020821199569785345749835953246500482611978108026630964421103395043458186731886087494860197703166371766266210746365484813103783063975483603315067],
  [93251853678592151163754802240867211533732250340252495308550219852417348900944258858010358306810130733762172410854139468998881033168171401894854390803919690917910106062748360, 89204448592593242306774411858493433218905690963684649088051055180941397535800228621360720072767425394128166461442256549561609760497951944142651840665714934531938324217296052, 81633172796618115889379803278922381338433200605657218192587556004813128221325478314689796623424498388483680581810808717472460903863714226348168070400865154247539263370406651, 68378019422524705260887634828619208729619755157861835742269626850063710229367210197159851998203515488579934425239709815588258973190825102797725312563408312527927701371360213, 48015769327918804591611624615864428991094435051544376640355065344103545248896393233109355198255643154419903080933385217989030282990692894316797964799179122752109591433258455, 23761296690777900927718097394992203732032993907122605659951870320361160298064391173168146757320818253992211102203283852380522536596281710338081473146340690345061864926486889, 5912283069120839663147072881670868898834452478347433775256259828985560131134870122507032167514291883358029192279098637612894285976709239069248425243683248052557879088955756, 396129711900400089548669471117522227326395433541402418708174735049831185417654703341719318245629189243722253334709459846926651929791889382674931861460633889257766555791306, 2831853208766857341778483402600181037641983790793540133912162449105997002215976278777458080693136163538443693694186276330577872605935627733078069171825192949428390561474],
  [93199480506414971118973605887875603050486108361691413515220188992434748042027828994562561225645759315342056557091035903305637267518408048594415885261532994961923318608280071, 89104314985496172106146448645575914806910337271000264037776494625804725934615591428677021067093094851618928454514085482302246663702649038367144992255650035770617077880018203, 81450147472646671214390938442649777069082107833084170371529903975344732959803570346738833691507225325760331893489876243467396959074840961631827210268763387090321769155022408, 68072230142731489368551949032566411458341723621979456584205815785147727118851865443485955413342335956141607371321843947637280301937730362576941353521742195979511811559393218, 47588662750113674198142922028458983928956705097646602915590884338341906895003810247681919364465735338971184947387073838354420955645743522101478918137455019660957254921378484, 23343379523891653439809971443477094434657116992054369491252783932994620497323009110387454285971218135194434494404977673156242814465417813482615193725474087367975942305568839, 5709424657945929549869764238688827351146218548768388049013190838083577811211064772168765239803481391354491215399857853165269269017648136878045637185992485050741147313585566, 370532405993745431526901240644882753861105519057342505970242764793778299134514865264838804866810655209646218009455783255895650350259365565067179685594644580516033667365168, 2524713334624153667513009465856072660011166107804683667450623386024519835400468648068351987094530939219440205526482011904495540740388306568936654537706285069102708465942],
  [93147136999758223775316060856994713243660162747555531058735866575751405828749289562469901805505400559332420266170573021952395109681509461407415375308287515085050072800325113, 89004294745427637453211814749829266054778250218914457790333569644870689986166438067567091345301373440265148224792532524378965723693908320222001770043348192466522194192698195, 81267536065866899268743855758211665678502211386438468529678434464750575683501131945396830182834579253169767269312714326588507856842419978232121492968314056150660618294201760, 67767820535933382993475482486372344600021840927560499828738952545454084390625139905902063956488218032141698089098749951906132814955387159195147246276874513765043993940291782, 47165390821973374562194441012793499863611487514990188988944144988862106479560047746110018146986833701802581977397205232146025638911505119419413688912965439157197152625906536, 22932888438382835718512687272466433710838361778707173307531138675074613512253802338081339724687108896971835757766875813613175671442991262659504528042246593494625254661359318, 5513614165521427737971320756256471580125978973934018630085847336719794115132707517136505966007459730145082221848551345162781094819650060765498158286435677175321765666573313, 346620471322790561819397147386266505984560796319993686965908346224688173300910304622340679241807385528889055535962207890523625709672223292317690926237372358625639235360285, 2252157577074525798117423065380216108112835183248588302740586321179419869236962124544021295966801305445675347975865653498632820685655024239468272401175316623212070639682],
  [93094823141696732822083340020292140190959977140171427216824181966807552399469845624484862298140009511673926527127538326174959794424120096834490884451348095766751654953323078, 88904387743102230847525078872737724336354999776609556889234786603822189966465910429747280436175206347785431608797664225218926787806108610414793172751136693606850503859065983, 81085337633288163987340865226807663291147974772704262132755029848942634015570629133904737657882871538404524236923985021342420665262725632303691113850019557746168349254756330, 67464784330292216429380837898923060753326689730075988127520352582760015647096549612637874150965140934332339197574473481174677598981279954400742536305145193227789260841707839, 46745918843248290535807910882385368049491643998053302660538395905401286477226528387939015272842931225310230666144550793219891387221664779156145972664965028855481941874177231, 22529690333795105053706611258972320756146933528735131796200752811557257529692340075358607658741637672337922544085183157840220774945291878012427614181565582573919671004448891, 5324604151965361019552977466136633988519573109556856326433469105354721380376948730819975893132874552886506087218699229135508531953800772553491367857653137490378073014626019, 324281203718653159081537943644348757284565577030468756227907824740877279662850436871226879631057317720138559264265269856223145338576606640909497990412738284636872694999997, 2010165680508221142128174543151823852665444253907609638039724205189926139335580481305032010011482630872978394801752434487179306326880668242938849165703674231259026269334],
  [93042538915315038454100424044636266119013782634511331048116207104542461682267180486954448679721181843830980273944457925321097519790897763678778916709599528120991257375221113, 88804593849382906698713524562383516150444387606766554579067947692258452890327173807096412554794528326000941618001919942062194893415569279019454409496952657816309507182924908, 80903551234081754910876036819441428964434422365665420622633883773746965783208393266398993407498875153918647006081066084484185006317718498422168005524675954916179392443630855, 67163115282665253358116588887679929725709839499723411796241395645453996354611708022575186870755275318390141122437830711926109770485536696886997700748386277758479450233829587, 46330212429817218419048070799830212217830067156292393623868929955900449621118437415333566570959293864724684269177429225490679301313414331335584586390512861892701808713645999, 22133654512899636959883896850380153821953380892314142207667266806474497835092972868920674345251645764889922009222308127298746798483582663695396387122904899154735234281859970, 5142155941694936516901949354809629309574316514004447156540902148635489507187974931390090927808591296503915257181864275868180144794648701983343630548223024675458965317218585, 303409534165362979568915247712545538137137438599401948677411125550075502372523124512121029720117835251857634176025344059533903431485557358380672665994171175498861282822914, 1795197518664488239277506336100814362374346468597627657765301128464038061542417551294344079208191762691093017593466204358630318820538144858005575856938354816090875115543],
  [92990284303707391763503723860255676857474158045966729355329602894749021933826763910144593226386373196649501634131910807389022080122520035297507497646941006168585827433802590, 88704912935280810149735631604102788410800280286589671479070002729314488329864255680089924323347162440241084682384364551062294463638751413892889298489578868188462543557818899, 80722175929575903533337254751369744316210642817600437534517664051943437934120173916505200436604893151516111699702796116258393709499715956793647503077505493267951047089167641, 66862807178473166574657297783009641178556137790707533997332468238661781624799433394360604840621926711277330908668260074254496836798255848020004153146058347336337882869278117, 45918237510790552839353494480586190480129264077081414157590237096296737315357028379794722000035719748996483843021826267477856829208830478693958915606377224205352236375575201, 21744652638027472455974871922610575599495595098373403237207642626628790377772559428483067617645254488230704015583189694382165395961478354462634958663009824849853650550682383, 4966039310644123094946215827825586768574044351047408992525247933552043429944803382424623686833070846767813066697270430812890705020197056797785390153188777933670179614607028, 283907505868829512335938510848727497262354439933588592958653608125854707718595657050525443360685424584097102172216776887402293845106706027172261669809357616774952660137381, 1604134427225602983155274374121752469473618944760824408911441645564766233684643288761452408340733274261745042147830627351522432706115253097424838430297652132896623745163],
  [92938059289977749134780944865753092202712451935822147386442679143265356542107527763006867080566215145561676606438648913172895793581031966586905060399367327294626825989274892, 88605344871955106098575854184207563646290184051583338181701738754833538803215054475033849189710691447841514633484812512873011309276196842785885827333602405499116443917931634, 80541210783250811192781658586288453980952430641267787991818321659467401892795484486106557807966397923130206245653706609532537079203220960216066902770828151426295448419029212, 66563853831568624106069410112731960823014064028653977500187946481802450036784888989987998463807670342983459262408760240074759951451832194174988892220352831652769631774813577, 45509960325640153189625606654608985448427388172107538965216796785802416814924652768630272228992076821810451650106207590373465015586743290389908961262300086245290688436717053, 21362558688199698172655487471232586132169021133069005408568957840356689172668113297998453294828109484481981096315305520302049633136695950907014995576394565597890172327946317, 4796032184716720164886431886749439349870651355619715055997317433008192250587508657474999431290415646162375743418518880748636757460426923548085093857723808482030926722710365, 265683787475930118757565498838351833031855411134132881704584059256081671127425780313454456179535632538925908035295909541547947578846468694384114398203739463434734392853709, 1434227845466271756534198516975212985124478742004124233230094241936984517735138658543452636000047088434396715626234679093154148125156977801469103309113145586893084902047],
  [92885863857239766643061299032765035244914000108679253321016106695226305652028766952700075143896080509974218619906107500381256139975780341610175416663230359622919032728133928, 88505889530712808418144698500362555185384432078959860231518562853662216192192876197231139826584372410999999114598012389178054718075689367338013116367991732737350110210853683, 80360654860733688478534939757640060592041513729481561151626136590438993523193720442684506071196322351253703197954085388926218731374529540347939134500495137717980821118200622, 66266249084105482890260282758222139027269612150341881689632550435970293700260043785271361338561894662332254945654329922324119193004555273273257985080456658722134559311232376, 45105347421355642810895421128479972718330445021724474583379183289203992336363233901749579309333891233880414180940275322045944203327045956343480883395864163704079925313424998, 20987248917040812137902961036464337764346976567346687845037189310637900906290861875594095035751267239041022936769119647317175429011475686907923074319672693673591440523466880, 4631920349069035440471814609593779106966453188008603689909030562681077120248281047608904885182107752805687454610465289427409979103853041083305656121730387181489709757171176, 248653219924657702362767248879087510921505726146876896189626094958602895706632567142992683009017754599061170323310272175406577901153473825240008951939743599018541759909188, 1283054341212533926993130604884601531838984351641391799969229835217999151371103195314016366060188577885124278659484679798980877534142339229665532474261251384250134334209],
  [92833697988616794455654172180487683037636490902133664109672283995610581628904503050234849229766593139242866424407375551745498105089628765258174459237549625095346475936831762, 88406546783008609374153372376384726767285211670628937036977847546218644059325806949893133840038764631497140834458148123452716712359324301933848811725774299877845791309818038, 80180507229793806128027647125979644675309119806225181257239772286895960618022047244737409531535076195276283276704892745425250746560307186157912465410417423038495374423013217, 65969986806408587193537346903732030389407671722628025596282107870098865301257723440591686668847344471183524863929192523164352094390599715533151702419902117991715947181557730, 44704365649626896397707910799755531047301543667730530173492133811415754990067833700017855483476158874313119204031633975113697876355364875164051160213845819257680104235861311, 20618601811460898136562158881937195483936254813023884883156338316153395661717177124937665087565455689466730801077078085849520464526127402554210078735953872262084193852809523, 4473497167831028186804853700236279777976008117014191277073625568789148239350914317749281498446501092442357801105243511158395904389281270345255571714730070988108344648909148, 232736394583017871147337464479173716664704754651273780977557192515006960565194818778045745718987387786389132425389917922072430486143938786507242267901210549108890969216994, 1148476212280350347457770217477249334688720136206477490052805562846248758464827108275140688726229327536364658791303637922276560136764599929855521973656431551996423145923],
  [92781561667241871236834354800808619581828730637727830207900500720995853701207746134731280010982404828748541025671080637908513303779524845707593037414200827539671724280724233, 88307316500444709240732549033262237738122192643824471723928369232037761978308127167784865024909977169851108797462701157876843574868325009410068110194379840734904028493239286, 80000766960337557386544193422056329309012794318671899407278041282646510477429468610357685461717149014624820758554626986983342461932160540720966145483620426166645848179381814, 65675060896844168959152373492137379828576284068780990258134599275934431620924658074232303408826715485604625331413383357912519357290392716603189973118747108193943679252679243, 44306982164052473375299674206030745424738612682362631618014232246608489521752689973109520229342490408989963373445249497722550108761787286878599045674231122928269407845720845, 20256498051092496587169568718631962795079794729392197589913698422011328148793599358169319595902452963710129238709018353256988359204133289767781693390256617498224240962577937, 4320563313888972202468337672152099453711716233636408458392788377125935267505028387586947358090221506553152057321343236646782239520156228167110817142687217362001508132826811, 217859260498639987634455350070303304023910876151689852089704281618048817863360741998481374512924123778953603699816681398855578631276733332355437751406089321105566513280836, 1028606961019164993397506255017826556406858472048623723151818847892805500992295895361981051567343271805858715884720763581780133115415784206344954217268154745577252694143],
  [92729454876257718555871945914453946083417998766684431248702281708800570039203928666763948453039006346322107055164438109097100214397354485434773121527098082874135006354018455, 88208198554770646113565056424182712673167488598689807953921712075946514708562675340135712238856623285277658070336183575765974190820857623749631264875796059042201183286180729, 79821433124403531803222646132974492227064254447847212610853302657744645696244880656729022592734363159622419501700754063338436604173518268593039074225340122520274633217633014, 65381465281690847292092287606264030673930888751502527068404540457979041185318864022604165445766288236854492925609725274363290387152662382540761755332202018680793136175464124, 43913164417373757247416438892710447301591681974685214495571635017013135803020772901044431632705425516476695211159506121792282571458996543780002291170033689587466304595723077, 19900820468468320022051275103886029473996139791458045077488935416991085266112897188300106386239315206127872439649826530007284373344687279101539458466636337073981568871895182, 4172926508366372865817780660578958780269322925823112543804758755022119804808209701107367911319342946562658411375894507527839713414847226251708794122001323744474955186080675, 203952758733749790469188734728335031304485149362258314974652304688457093903640970221854292600169470981035748218697860844751134841973602266732395043659700779102011454176504, 921781028611076989107097459829566783789641736775981747499292041586272480966559242741580142757998672113625955404781042869154398749302968193048035009612475839317726819862],
  [92677377598816735298305040547414758455822899592963714599723682154692048424340779671477528832305775597828389037321773019819303527572226959233587679934694299964568352306049692, 88109192817883125920302572490022865742656839695318437767610392952976706914978339429911961044889920756537532582906099065841382352973639936555258747400136029684671423879399483, 79642504796157600436705631954224880959526279806002876716024854319835583085515181529824459685165627649034025634339392589882281286169197306979012934473207029351873643813803798, 65089193915011224298403257530868241123591496094556505014947736832835614246342143721351639040077817956568631188558355428326378375780833166746279089300306553449495984660063601, 43522880158734563142420814235745112053166475880983392922579778171498847727476511372569176992043375947812281387785474611278294924839564101316997594126459370997595351123774639, 19551454009926216585834220931137221626307609385231102322736954960969257305230880270449214674383731868681441172581411029918124597638588623481124341880504682183443131936078668, 4030401269453053999745328885527790865118133503337528406752693209342563387886299593622901748547463777025582297920286677254523250629603353909923832961362242494296173304437784, 190952481902065636993478258996144865772675156514253881750461083263322210443222538047583132095926920911965457562671694811447313372161996239479925444716307740891258185753195, 826527254133799837645290239662613669135455708212754245657440842023813681576557558227782743385782557645629235045696380609543389844333050197787852082108065959906704700292],
  [92625329818080992080453312519850595285233954616705850014510623170451339701301580450028995669855565287520263841774919270094218769234133085190738657325162682606627485163934332, 88010299161825852628036675329548332354822883976702031566544434448309150442315636215001923850805418264778016924899430917230770198034633143548126804759733858494816707639777039, 79463981051888012443904783709551196273021566072594217166751989007726924384439813112476471594071941443059787290401104986913253764418065735459951057861847883684229413623312273, 64798240778524074510299151272298025775968357916529449293958272613414559455355555055925726053227629951094500198093425466569377111232428045316195572765295391801316315655050452, 43136097430965977993373595251907564570296190910999627487383426138226235225370870799843557386738996452776651137041361919326735643425641727823646663574170931435340083459826540, 19208285697228035572358258059690076090564494315894204531015303555647054093382604497820192247353929985652334728576420235459012785026304372892809530111795177964686486714247852, 3892808670245031314608473886540999787463680652368859686485912317813142363097805894280596061621801828496112824086864400118810225830760795528162623611409582589981406832939324, 178798357156089482277339911923710853803832906117579636269898067300587794621689039417780078480301911634361830626834541055079705468196131632564501318538097000832890504803248, 741545591613958689488067913072769698457871375419039560777629132014432748680614374112205099887999522104419882383530824642203905955096324136840026877320038103315750875191],
  [92573311517222225667170605343282934942659589772927698898784651494563234629032146735410071191588267153591277835291514031364166959698913488268124507539106839601511938227667966, 87911517458789358647594865596019990349075524400361574362456611271356561155439002233390354666593166250573979906839138621977231100558705958199678853318393952631387127920658325, 79285860970000503025403112935988199122960130469844676046646920591929890221870855600171562205214946829173750545108026796732698987157623066140730200876426399365340631333018606, 64508599881477125141209193730617377848661442772425708242825309162318441124920905964890341762263655369468336731422661509770421961614956728914003759002150493613332599538481860, 42752784567896199975228006412657523670438004379601119986130062011277436954686988265800684984609999200895205773113408644291819786584203785110710783049352088374276989632972862, 18871204589879294988257747193423883822957779949168312159068531277459100743346070682655259515103079491132697784712322489859869883673815254952172657551444139063333097448657538, 3759976105270027354710483857692423409437376502027333992113069355046892301429733579916288558169151629946738662255492357868622158771811335667038799842591845217749181191212027, 167434350995876694839029914405298183441378389920759811352959206404799190109546660649865719422711182512295187053886372669969905939083405444762135622803470959824104711289995, 665686677702973452770394952790536915211137359891521749468338693096268874995691445018041349059363903152223970385188140188050173680222365140769841349832336237509230691641],
  [92521322679421833392834645125744887609827003263088742505261942494456033701965334776205242657431087104956191307074218039256247037612512902875536030870277051774300009338722821, 87812847581110835434432446432860618868371034952696648835275684409511890822113757814832346013872259345951225758994494210814230274483013061247978517006394062764190806476343751, 79108143631013412701081500515248912739186748410155554081409369980984244467425564689509129899925337334867575383261688701923141069021868474584237022475146654989597235304768546, 64220265260520424427763055891536858523658937214873497572677768205635906935408415085532650588593986584136766932357841947192620864557196380778263151782892956654626923131502864, 42372910191685145989347922148165645665911425546022037161796763198277157996142030968973772400125926936368882665706475057344077409849577039823110768634365538016879153079918227, 18540101748136792549270181725521041007971296783451006957079204817086295616392334222282993145283506330357783297857112880024207027964255857465015839785320155734778843960942165, 3631737065385275132658513114937204171659348581079641795290050135319109175079513524640331780584154966457105079089054834709979300295967740769544228959777009631593346632211433, 156808194384344418659755181200285020547374797948671104736783880472527412637930144241320420930108718478408552793550041202742527607463551572330747643497502162743973659778445, 597933894352080390574990170764798115101164051365174689316523539041126703698745315132782772685584607655001678182708908715689003456603684470604696165367553220504835944897],
  [92469363287870867585571990485063424099693919204917777748266446218838161582872663144403684785338010079674942689978578436766219829182607857659665216129028728132609285791333021, 87714289401273964285891413955960381354937137661024358705876047735514144967993004103557152681891261731641334002379604863066991705252575416480574240609448931217376458874771795, 78930828117552817889617162138705520866485042395748792365632082056833811734448306303948525232713029360668924440992644635274287730780527281992549059954432853613443850833284522, 63933230979580295328494946435642506657079391360852224168518741206342978992648255429019516149968565101751823242331002301900436156290619800699131533616337018765233486334980964, 41996443210183598132438866854217614043552331470914280050086947038557569729549927699611687206524932726900655853650162446301852371692455467203148207783645044569823921319419048, 18214870196691538467097131401424538989052413124597920934421015446912467513457286350611940270729896398735664907133048396910244777707545481233233486822851283858510483025597712, 3507930920745620299379924293029946093144641319895294547480368611991637907020375597919841208559588712115283049463058826886756560370161648639636903336166490365374889670999671, 146871126760128231375395499698067439752341029557113430777428509701457476195178247817332936933794512185388070387122556006021192159296926360354006117293405486478871131931936, 537387615945372628599907538960299435251378854551916069933816810834416075633515899541852425612697352586630207962646608206860889082842748640765958309404093574808945972351],
  [92417433325770029994716335575614410155098736341186463879382311311388207524963778669986357874919556559205614662527522897703098788767570300855219230132964993327046079305088422, 87615842791908747334597778662408869807909603308947625651231674731653747714028834662411557846067048922500050322597559027411062229285649767293178976102084188874869434545524044, 78753913514347672765563465357889697179825384225817998907817695084658964591593310410743510737609059096713214276060123647623017071004912043461553805111523220553033166292039825, 63647491129733871861771837688534965909146303384681536942276033938826771020552669463523652062666804849803082811961781921661243982119900850108727226397169167847450816779949844, 41623352814316662213853253460082332316795957000301207054424957702229870239395006032347400508165318751609163744272590138364621225858302754209208925780598557710728777825795904, 17895404889014620953288533572463347671261549019235823881019021727991654223484779349222857120033616990516080369577091832475424693581725581911586572170751303085038133801248332, 3388402711550880478044182675948583652415011111878645131132727387073355716391801645747071268954403811608927523863022623032195717894963098091049834187452122473712676155286191, 137577657637489579883996992847465475821471108675865160386611235850169973795038409574529919689166386652277742151903004026632425051372118703859179404525453647924403869007195, 483251369637839382701789426965710050776763085419803581655418787521341631133615816148739590260756235617463255911460481676337793350396262610726627300991509220395924824051],
  [92365532776329666221498283429142816288661484772449563104928777267784906054450140697866100785323902842267642766467381336615670504940445829627608894326362476369825068842025961, 87517507625791338737769005209923322147170653978442279936328242915475113811879977228901353617820227209386066799184210119621809108786554570749128925954825183987374612785284006, 78577398908224962367781850834224201099366526649516366837768916366746787301344037106451598599137683467624239033677490209336234555810137499550884820860193169596812994137619670, 63363039829084215378115022282055315242532676962586291986655844023473477919082761322169599612256873645694817104005929721420890198445794664904050986540133890613459682665491412, 41253608475491313492285868145083210586334166632717117672364142278856229278368666170483567643094725063353150236900339826829608478458085592299193961633678553983822998548012342, 17581602672353843633500329031344782944145946335707822104964576334665068709847087694928230627334836346854154553730948084817276107340240091446253581742934121789503086515058938, 3273002946291970423390238598411973926966315895342203700493770253945725701753435397174585784276933034218621290337914168948916872944697272838442113976559403977183255950513564, 128885344574339723894225759949150042036429894417326193003547102592624040560603173587468181087771735741323913860788880078959532463823344186170019553305406413529949915353264, 434819671892832864966459036115786569902581108314545538933738316977698541237266309127668217784358698686237411915286059819057130710504339475768539098989889666338825380926],
  [92313661622769760152964707917696757211759895159467459973334005470044117615569561622970748975335270840439400525059616479653429224860596172581080482955036090425065098171359590, 87419283775843876062203524759897543721662575249321795456656713823946426823712232781045391038575663771938686599966802062575151089306988609429724736675786636400302108082275277, 78401283388104866933057842505165608568766398505329827540813700081719268696103363840718973206047291060997232361262817512645862488813278560744201111886139762069784368013921238, 63079871222636008074689043322212379309733299074124923762903242965166464656743073432686635790446725570427526967288847057320739828310665454409758334346611487563112179964941021, 40887179943027806890297298681460773515192111109598440299078481380392004460879048015154394692577209703495900583730458054354981572829571521274675019960616882487130309005296307, 17273362253369198110428311344923443768459280050841759695222711086215089398209266604082366411431475962776744933415357590434264760997872960289882246757220659703209507326281656, 3161587407225467534283611902611968720436724787400318100543150243899857630009417838267136890974643672810919867236494160132741517825054437287326424651730441748299868214839327, 120754586374569968107304690562146269956655837130654841516453039365697967855301500418408099772450810479806948990183534045712026782547252877048203160341596124448545438747029, 391467334074751861904514834419192367672333514608086601628789151854837628803251817997577425333945792509535723699273557742369361606782786848002932937316637874032711174958],
  [92261819848319928399125823740594580932964757733310211188816927714531376675853343687464188464508354336154798628094925614550294839542830994982880899090231094161430841757130289, 87321171115134311864724540517052164552185410989839523620788973655729757992428239244110196666221126808965577980212991408115798994673084682216116087935704480083943860113559176, 78225566044995937428794220068136041632642959963967766816341627249237977401988294561188885413582785901119217276767540098495311293371190755444243353670258164324684592337150902, 62797979482171821072277947018943185032681430661772898213894100949707734875884858448943944317334695170573593047717431044855012927314809901771069997047270686665814787216936926, 40524037241614731013075347671097088497890796433164270538436817312434313851128317829428084487594664259273950716607022615938953310456844058300880215615963757410579503405236618, 16970584164395454815102115174478729850834129620479820939641536582537012429519684594342837399561574710272962278738923742777836741391933994085085763708428285310349669863070224, 3054016962816087991973569846570618889376179825816984539655918800066863197153630224631858614574380151792696669514381891008641137336553188000464586269204854816413312798863201, 113148430470018235968092690289944734483147535765022029015370514796269753945695367406914532586131781710368867177822488722656779848838676061008550459434409390106929955891559, 352640055996672772678170821423906595300258405975999377670994282632897053549228032483035602038002495403975816415839575523293491239420015102569738644929334462787703756668],
  [92210007436219414733328084939966854683813265224447766643750142437081987620336275205557891931544551604802957764941095176384967907045468363779068022805243177808148578100235130, 87223169516876245467850613219054959432168448535839450897843592418301434596309341849948868485805956409041723760024049215525156356940034033064976623311898462813438080736160183, 78050245971990282258735372771974579722156130449080911537360875215324058828750138173890104781404013796275711132595717171033082163754466200309726654952536896729577335296239906, 62517358806128954387556049057671422406248128785911349334289509949464221833605701483551485041632585680348353432475220829523477978857768564381322488746172374695719420515758260, 40164150668787487346549261934135901843990149935046148944725436166256214724598447441938295492017195324788364669873919832366741856877875562909669584202033977511281388276494191, 16673170730320371120928157095204378380452596532737369841385737434303505202924377445580365958113967954873127621326933512168947805692978959221405488118413355177434301565011708, 2950157386895982949399572889498375792606539143468922101629851933287080828924485358930979724968929937085562311542009262277574448006030678712459212934277311638082585677220757, 106032393500981581463725420785441178798979155430022484183810101459046946774753269834855585521042314183734363015280234158802604959920047311894891089313224071717102186891776, 317846149043336039148183050044215583430759038955768058931548327039748893179824593732799271205002567142610505544769707805470961634158819239814306612654346189831895038517],
  [92158224369717084535851033546216155794889104368280663835606999921167194859888655856740698915051200096230894463709798966983003988829821428882290881861064682688702186449331299, 87125278854428754930465779142686613915368942841245411605949539560570397665002286437208420678093812701610510651155269753579463636416082173732997923877665683508523073554284631, 77875322264258765115737656341545993096101651149627192094776409768177432901287813392055402261596142016769287344294617523885088912424473019362253024516118770826496773392420643, 62238003419476846145889259628950532400942466245276034776696438382775897945261006337029796655673450993516763365265666769013996359915767718270335870322777115446357368828257714, 39807490792429978039588933770386846078613461299730435916912475626950271496145573445966615915123611303553200989152664220495434425338580548186612910915954926400429075878359505, 16381026036067227538363302539570458292315414941113326545198949821434188711593514402675582642941863961161647639983340163707854395364984033900817852877284536050107515640817726, 2849879184298859791548141813210553052629101719975228303368812664385352097607707870412910401084369433304705838510294143949446526183813162623891842527630717528738280614472876, 99374294182596038812709021340838443582166860538697670887161298873889648138704735699149794297264999567884807377102381926775414403396288912180694433091325783541117861949995, 286649250316799774521071437715346258569772308375744208308686722789140217032189614757500803980201219795159254113497906106203865508933277742013706621800782077389070921394],
  [92106470632071419240726221053385954825368962218829523802464601701011020100594612537551000341088142518106465052273313128880140634894685866288439180115204316301050454438034909, 87027499001296229213262218702572525597192226681335162532582521224085029475151445898399190647477822868811393828607801813105057124974945191061463578145470909195104249590503627, 77700794019046213955661235309820110313780665516409025601627369053565614458627825599378157563223474469911459139504609863499216602757071107247641071339214137946341335125872714, 61959907573595048392273750898287893380193660661548626426920600492708055452669197576202361393870244785351854750137011723843244912306899035856060652612782849963152447623605175, 39454028448299287685729489027181932450567741044622907775284087238363404941899631581686341381538735789835015391273149385062301871298104623455825296108517241655687420318016295, 16094055894670610734441618662857676642795492235716906157524963762602749266189938458397164958590127099589031303947528361930378500265561194550355524212462284461618550056665833, 2753057422735698078725937805889573423763535346688799497109789610704132548055434234300270735208288815767152853490911730487883125470739707729191280390643630600064092278164506, 93144097608014346492177725144905289056325276241359651358018290172829970012203412565509306677561099492362189883895979811575221835914248572979553364249202846708421245829641, 258661906558573356720003083693456896047372843281069470487025117535747393931379292001756741050174966672242933215443696780622467299254810058399931480196285044988358449012],
  [92054746206550510785776326520876762565442948162260466368517185878831418008287439475346889012522071309173559791130910201735391808629421304998379536269588517065348408084502340, 86929829831128200538728758893010591870168220973092045953116945924459285091804699136939699916209821312495913035546033525607984384215198337832900918544719511309446913817561795, 77526660335666641066519411346051794386206305818789609569792504456067006047506731202419563587981414626165427795472412957533013106214410092391896825828703109903750537945743570, 61683065546151766870331647207732293794836031177491763631479892767032694937590332623400438352839578884746818810297167236035638215737075134646035669932115271197946805579950796, 39103734737573146511837598754663138492066865997045472399995105885013909743761468097691094102973450520116625968339264910787905729929125892084685546320651621585169867945003990, 15812167815934566203245871647843951956024615506368533233762944959021086817340567270386996262840333139856766491995781558492605630744444556548035932269194395394808813125973141, 2659571570687275468625140263029046393631717249293375820583524740650133772707197791516855941149426370366470317718457482085301464060106996803679805912515721126273669645798233, 87313770198457702055883811383864032773175063412603178548316829367903532757104926643852232035680843004215063609119067338054098046791006221341220930709833899839176308979738, 233539921712794819669855251323069714331138758860677637911202212155179025161874675021263845415094042423544060260656796120584842156566866165112425368863695004719867209556],
  [92003051076432056065872596195523337808400919727572332748123557615625377351955335349871405754577695795525115448703155284753707622743410262304532514117332138016895824478327483, 86832271217719176945458757715630614909655737645212830065222316568397384471043998036206757523023069517817784321184121382837515232895433360393875095173635364610774805717216101, 77352920315498474207081814792512025447743019826376995618580562642520277060004433260360636295734686187371609893844169758521282713566814857712927709552936167219025160687767208, 61407471640982962151538743924575496134470493969253732062721805575827946669632542453712991716660318349455390977444210433092341506297360545079657313994090053167952555364354335, 38756581024419964354554507485488439424467653987409181380593158137780451489763583406190617824636744288467432002005314031119060811408621519349464538621905310561662510640937285, 15535270975662443722141786466297016446980536695364004324868696779308955810992882589585863776953116454781871639809771350778294967066017653989681834120280335562274387352708134, 2569305341096857340584952706084228983216150748472573186233631653674706806758295032245759737525061878748526781710583824573617547230118018150080388120487832917260670680373597, 81857144565214883649188710933198724324664220945011262318842033039708028296059344054809295194232213491333051828785604747711981086958749471188559719506409149131175926969783, 210977375192371538505901561327882948236727934373416431886093212807754835741913977381154423793107574616505266799645697835541378835126140297775333992133407058735670449280],
  [91951385225003351389408730642792646776267968928545020232809908744051842375337801551382385033788243762629291289048661497801123095833028055372660082614177357009475523226998699, 86734823035008475036551183301939610742488320285373854563790228862148921521739859733406744390013760567310279089272280558530431705604753625350229673067888135379864365732707052, 77179573061979798789188071804084238845320428311442573473088516123945089901474755387763708211975133584935805791654426346876776373890081724480699421423136288208582485804639790, 61133120187972009509057285459362113767271374944173195376657901597517858893094959426822133272490299653168884377274172460507139839820106089725617914199760149360638808929666888, 38412538933591226760385592382129543720346584727919737650845398552261267997345767800490418896516051393877688390726785157036059565342073960705870812946788012057434041562299801, 15263276185447955334177364187984402633515126211333414893638774854310162794418666437231899915037599418603460683370373560425275097958884691122773787698376358432498718904578914, 2482146540654246240628773082260445075011741976010639068724677258761301849029506618926447757894113391718259002238374865038224055813050882281371966247900575343094129060500605, 76749793599803531678959047712284264036610141260851960582442161458125193114607932159530294848975766755213698732167827883350289633146503678348667030325597246849071861371744, 190702229439585788352927285552140993070377056842441717880134461345492488870996448663458819286405181407144813637890490866299598018423650743298385073291531251562235643479],
  [91899748635561286937989346471668379106724776560553159502998522001042099325794326936293298093709160887966331751581274398470497279652206640787031649571060830092319909829888300, 86637485157080052921878964690193559450420039547240248928899429332972800280086661588471103800693573771081106827474320920911940532854091303019548636990994776499204488006588253, 77006617680603611078088653573435399063210047542163214949458915220723438405070088901461350888809635876656775245400005265097894313020266160455042161651026250662581148605150008, 60860005542929914942687825329783326036889679743737174293893047849406714126867943162163705287388339853704884786855869652244405860935094569393330013662582631473347214184389531, 38071580348036046482129058852185274473597148622064715578753022276508646439071727360285241882605584545348896502948508797689266111963512377028721501074774265185845126214113779, 14996095863017158568189887234017120207974114215126657862547540300972243662379199456751083552489483501349609140660762702011461442752825894642067706067251822288310403048778846, 2397986924469944441287137216297620438794664655054770091664850020506227171521513993930792123173151105481699071022712563212301306041540027656836635105109486337119792303745760, 71968913156066074789052735351095392937757820344913704782321661514483311485030684535201346167866771163030407144053123673949386370946038061174304547818441441112937520844467, 172472455448191554455693611885141500109526947032328675707043076868319780633515286745631097476434852025495684180360406687083078141607327147573927629122524857981144822875],
  [91848141291412341229331140833275358633175944037288712223032587598061767162634160099766802636949446065135341630316564838795178086432306298562965500456926746895519130027839731, 86540257458162343353998955178135081737528660332917122606460091414122529302072008704678565885472799601235280242172412343482411429657015311546058526203854804710656640872466899, 76834053278913082385189567503395600478315447988516760354094925413962574286426024523070538226123705966897841724676039356305362083693155212683647490718201175528884203949465643, 60588122087476084773538418792675388443397989008169418533489692738282635223948989776945756481196878211666230144370090321689279060644874518090139286544746960980278724525921119, 37733677406537665563117334845487347863482467750246549824670821277764678922686687855200228270930341607197843641193303113433085409022336398181241674621092553239320082039279143, 14733644003111267012279372427996805292249345269276861932804617916261699398007415224733971030676768783719778183798704902512000538331626419215429959927420040127124320522887502, 2316722055945465282123038206434138425011968099302039133177589421593353554077590034639047190701718082992930414777017648555681010130708078930967193615576492921412781902170465, 67493212732199379272887109372601330922769919801827833693597053893056595198703439620776286770471048554347356367324550387717615234637558348707921618961035149363319701915913, 156072613721494432503505429773563662252512664729044255967722003390017797734825170486409366159429246516761163488342277287189819936739952357447977148405934177054303461694],
  [91796563175872575583374887964457325025446820867227295875822472237212256991728574838110511034795643197672204407834125475752868736903970175849504684800942762072913410840025678, 86443139812628087057478112794075828951273762737529942345429450419287708108454899138343078810670042713092319391402328675516933459110998603569217790267005907650301852630904769, 76661878966496834227637363085357509519800584310366409738598322901067070693901288535703441530956854771540828031460278981184760821531192867503469690581927036108514895090106120, 60317464228919646239037127581666985997744921344706612372508740339487748676749840029938227662398660318041448294054104888020212474349232720715420439227609471162941109944842475, 37398802501371705101652447648324380905209165942157319452865401563705525767336009769917687838022588565975022933905903728343309576840602814346305916454368393861988716370851955, 14475836148900376259564342684630322522401160402941069946961574236882950190465473028641824595630434975003276622626273013888580397401140247166403610639565130964111013257004087, 2238251171652846559673109403418195472145771361820251493086190330312424536328937366149107963261454416257897623294885119792968869860117316380149322795232697122897026841222536, 63302813601847461395435280196752913651495370013087269376727133410063718129251852236759671355145718811341033494292012100126143918991338964147320089431827322283822910126659, 141310835842224920602936417090241761215397061639748043282936163772482017771838509405392870486389622471291308561937843662149053569866000493328061399669633843940325004644],
  [91745014272267628591606398145235322062528112083725064766315851008810425295823503846360660206113054953381744064693203392625243029351430081737331034101456591769513491849836534, 86346132094994166251410765783851004112443196726525610879888072951149838438378039942145919142442507629337487227884933827158599355564528872632090333898519014655932489162220760, 76490093854984224429240598136335625855520799151707852090100702167265162180621623078536990621275035077299238081544695185504121053860867412866741033020744715618844984784177068, 60048026400141316530885311843718627237964347856815804578655864562836396254755000520323198414994088128841230806539977246449197573360490616951355811885106701727886023771457287, 37066928275985961671218173686267056492966296920194265158355942030747827288228714564112033749067765809649379836437355993621447521232446538952879074900412271580746679907996303, 14222589363918375712467930388797015847305558220960689911035615797526004471623925719809951744557336130136701244478147070068430903041029647340916243594321123987752048749631322, 2162477051043181735854760343552552571366593387811655812658311918260387637477913062971607957147887101232865610720683989089987705693344750167487778168700051666719009308567971, 59379153881638654333891801379170739071577353014257839531980778834659409962312753634893882805005186520637094664698588920842429282457565319624844471273965852241373119126038, 128016158566165877355271640681957583148762887705843502430361010872009246468891822642881938606859043524517099783548611950696871471844122005555919306936556213301458458442],
  [91693494563932710589584570527207016459227466034419335005930346588309799305985120108185614100727603882049243514662521613160550285142886662908466394909141302066079107095710641, 86249234179921438364902094007092580658108020839121456710740768421375988841628102772952844309105739126295207812706051421310688290301616432488644141101703784142685052903212597, 76318697058040644137283444080134718083202461030175208683885175108661076315156279561910153430291697001702837207716863560992695028892410889334296060616912392206380613821408521, 59779803059475817730464709897922818197428541394171359393351622001129643987459418385841356586032044927828484816923924183580717424090682688172085689662478878127188113315910739, 36738027622701551237712497861489343859245069175710452345294865671817959733178780240912186931149720473812772603101671771437944974346658255227327293530080845031051703422742284, 13973822204509495826915382349125852446932068723064158425614292024377543194045705957541374317745793950617303758804676818537911518118631922094433908048081912487145485258836394, 2089305890810501444173367510204876612921532988597162830085098909823124394553222437071493464604724017384525539524819629745133313628510514952073621352074163663233617581693133, 55704900058125141892678067409429981443057819145967773832433048154420655554153540376397474509183732494305139683077689413882372370133961593626714120660586813008830454927057, 116036168245258959443449577823860998657941804364782797246155962561372341681704631264757539731161599768273577182770378635875728826542691009411117438168145843233286155759],
  [91642004034212598132674672384986463418110772941396118458048060651860788098965989841577527945487694876466314747105742550797087221363566911797559767115680601378884096044910317, 86152445942214569945293219866538566812015655974441418841193610006486898137351603350274177409992960794001467050783498193591712696623990542543122480604750574692138233158632698, 76147687691362825729846502642635551307865751733385133126389757889378698478986751010458849912278308708091400899818054273328028468009195207541316728531243133930779105156594020, 59512788690594835108071124714828064543379866405710483076778135269460711267936104704088017580892489524466548928682662812355292414984760688927947588926208297227079313736744660, 36412073680435203263227808728449810059277073618761571483267825500071671893493692889239583161416794223680304762651086275237507722915319751858281925275482002816983870870725875, 13729454692777116163298268412053496174918361786791253615364827114649982412588178961096761668590786486110475770455365830084323931366764269384798412123974611936180653713672653, 2018647183743617664485843625153011822902290363004286170257347364736206250695989338516167273007686831685019243085739650290424872907358366880095278058215595477603219097201264, 52263864530172085532529520342515379370158831361830403345268439804630876257354168444560230951775456614354499812737080619988227589595547562135328182777289948594118701617590, 105234918544251485042768412474656004648290460507977247375158671011899639967099289239520470600046780012232906045948057720755183587635743499149082578223162231484951658672],
  [91590542666461628474984978433392051359568875591815880861151246207013842417894671485384044363612961199797212544715558357430324724459423311868685116781358064235889342984940658, 86055767256821870758903564793698299295156926475869174317275904857557687033234670412780753435820894235645912507375492761110818852447791051760163374370531557089671425450033467, 75977064872674161588309160866600737738413659877102609796925262360606321277842649744205567054893057433952494343718314306891028493882681563365154031114035158890942803677314596, 59246977802390516264151908075142760062719847151678259243131510338945303206653418217777019316403944207440791058864718348769009068878163438175261433870274649393516334471884441, 36089039832442509516975657182361608336643053257381100053765558218891780923333606865325074057817693747770874099523997840071483715384601166179447984345685522142275475325734785, 13489408290025632148252861201353668211595707096854538302788328692318182776420462277973947117800578243346651445270107998908379972733763437758663189366189431597905248293333769, 1950413601904594652155650297869785667983760649141577579154531578726214820065537445468190681006316138541374269545157640714393991574511670292868982547547131789851672843547577, 49040928753620675755707240882900271754499691936899690035399885652047686096019497054828524294958352354440703095629246083541451193209227887354031024706885433146310598672597, 95491088931052887037567617657883575796459547960099214968478411355140131337338880653028698263649257607936174321320085858131099844618373546606259077661205840064194536257],
  [91539110444043694051504904943612224875440461728550131622512814675180920045301100449701770146658596922901901915186529561710653215592304782083113939645514281353460444857385938, 85959197998835128084066389413103584533228053162412353870477250325166763532501832487056049862465193910609874567522211150861443347175543644744989700133269839431087060906699956, 75806827721720033709766927117925476201407878955619146760427644670095418847273842064106859675201560651832916940540147742116165429327720889460455571514702798419959134817793026, 58982364928859508602473619294984400243642699727529386113741746467838291767305091969994316057604121940390023773082495990312769527826356014910204461180466996296274510806303314, 35768899704081933927968665950142545551513001775628117441603202422213530026687428786429242781645031073894168250289971990660652496042193986682044593290487082373452966665475853, 13253605870686347800445215815922165672146486300795517144167533740733525994359801220342711652761970694335441139565339579759298438266017856260943385085992221427683009357888193, 1884520883978342572097240418496236638199095583514440626501777473593329067243951248187403919609983206986572146546719206914473478548502899093456207359275521855470331911116139, 46021971603676948221114863162660030105631156368978962722892758249063718557963607974163124869151543688649861579844737395773921002944617497486333419912716055040195214592657, 86696355376077312591982413663921479695554489017427325273002542547977306081163523432142793767521439198524039745716943694482276460879469650659753429795409701515355136507],
  [91487707350332236963442774481275830879839206261290475764442973010895580927196866472151942548136645398615810561618571240298821427931493488175679349733248595652704693501936701, 85862738043489441196233697294248440842740571361969181367020685033432490308331202590505197265374075790531886488809891203714105407182637456173283499463446272715647367181809720, 75636975360263154134156168074602751085240031006939893590631581815182256373341015475423820222356437959415505389185182636543285400399984639212633658944195588304394347308550184, 58718944628987532636840494009449398382237390134202994285886075307367586104578625311540989241669274856850911454290280749023689435545582539712838532039767537954392622095009448, 35451627160599391611193634394110693102516658418696799740867269304926660332162926064426651810826268854384282378283417713490005221438403125237021653487670573065093700846306826, 13021971696718527893767904139430224458762940899434294632528061408563046836851199016697453414728048472985025177014718941166486815940921076935667357288759400024371834093067503, 1820887726643449823428406095154772992691920953024005205696323173530370309017827453196548866864505984862856855546262963322846625998644239939804012610739788405428091111543149, 43193802597107232718037093714214569560420502445002623905409602967582255040013910282607847517216770443974648153469210414566502303091596382346240512555160324002797803661596, 78753948160769980970188291035380278591351143175268172918976999803833523066781948138093254199034325792644571844183127871914921526957654450561156280198279695835686795198],
  [91436333368710243466761348180213377190347235064115954796635100040794398887375030525114165391147243113478750617603956995687252103331637137526190712209329404326379389947235033, 85766387266163056044926943692077963146011566023719867594105241271590522354018013094472865729778793302986590127600644287231227764373226373233190170465508091337315420177144659, 75467506912078916160937505882097297008646096363126339339061783395219213317876340775444131560882630000564228942761741351142034948457328120826621695836396705524447635672623255, 58456711486634488644623947339334930266267179805877427587355181112515597743815469205409425434790297135526346798584321248905835237116285922286130897496467846245225625153807156, 35137196304933206979394884158694209428981450055558320413476720092471407104628394907019769542292868700585495073511135080021609535684638086656550340795820902698284298204844934, 12794431392476906180648025481873033533451755653497444035182807104155520888690521891789125930340165658676184321623083160882544681762903187164151422507603384064597991001121994, 1759435679819785973453559070184934561550642821922094187921690470715649613018420351243334227989210595237344004562451390032557802628268867908496877489758056854059856858942830, 40544099641092079264170806652230888295877431915853657342199367339760161755569761356220115069873152235379192293981708879190221554787082708071865891539704822467288274039420, 71577374732000174960859487649447099231752559871229062909616407759700483789098689545513035532048623853494569567488020922655647181239659831345499809481352358676136723767],
  [91384988482570238463909263553272401693416967053162652239259404882802121143747555359353789406967368254046137698007198646224730100558168368359092822464782123731960796719940020, 85670145542377200122310251843883897557554107238820616747519367029702116667984176468664800517567853304049079445235603131425854400278602954332681840807626606059841941957220469, 75298421502950756330247836036183472158147645125164320070320317531262436168994424188065881818099075783184381572737469838822417279463067920093380499765582561592776259563248368, 58195660110420094191948511167842621503938464140206385637754043156695584285900183381958529563638994124554536056562694158333199438016055228401392067444294965100769295825487086, 34825581475539262616391803208543111936617809473823462099197564558418653388988571617232992256101653440017029459561161545187448742668787833498206080953189670204309908726355123, 12570911920037106433478820544935616747358531625131608905205592023740848703560943493087173661898972974030085131561767817492529197517550993915644540241027191440058978603734037, 1700089045653626494763428138106805081933999704507109464331043440637125545807658432225453905884862760837498974106094841370367339341774137534823992828408358532911574699082973, 38061350998633935556876474446973626599800358409719369477079866074418703681493589904983829086281511377113866808390272684304352334851201031773367965717541037549571071603104, 65089288200914368233226303753421410089074369957563163921850448636707957140002165640391847777339860764178890839047492944560432250288718392439634688305309014392108013802],
  [91333672675314279998746516930476872516195310708622120736410741087430243021694447909125614204238279469597209459940901630415385054975445166602076458506161504574468524795825343, 85574012747795917523163100269560143060934577379848509004135837426025400157170710614985712917835137397980442623938750797867779936456467441133632310291266547467842578723172869, 75129718260665527143489490476007799199880264134414939620550510632204561142329956855503676274308696011329373297983262961608372419795018966284379778918299353346145208109836751, 57935785133610050066910622454274573967046540974619935479851279713803959501045758150725128784122019369699817638351369684072081016600951955642740016307956341245141232659856430, 34516757244236152335234270936928355538894211132948931083932077032694189459131848837680363291179154642255854833785821915668138147779024155667942448487421645752601480667035459, 12351341554970590239394804347032512654958840513585952491794602196506575002122109183707243795981751872343662381881551238571761971274298284438005320076979286062165740551975895, 1642774781106080288074597164029657720426724454503944978448623068025115008512853801757074419046186338890473764263582447365004703624678052205826053379443772343048133362319829, 35734801181851019667186073588105399748081165100743095047665483857016104787370408948614345056479452750877862197461891458271545861170792490803066865548593788925970018522833, 59220484419171116757441132782695880293882955193825008941686005458519702797313154740166229079356188690697404501853884205283398673128975241826992415398047543853269023026],
  [91282385930353953754662130701757088149575515468999672205689461417876667486240357345020913614779223373593097531645093966520829317413698091281155600271055032496862564180301112, 85477988758225904196029705086360277196175937274297203707694644962343939911059889486313875291052293046422552952186453028244711948865284936697332972641520605956636088401552686, 74961396315008880498383497116413967539186668278974991018675103608705641419255568034844350205891648369106489295732412262381112002800677089627563787318660903530240394762849667, 57677081214002732168683792380051376362728116470742880266593330647499951870994602138182179982860631036129709055788410221996340661095193727037523371698112549130208465938968795, 34210698414070153575607635815918643094790754886527522228336774478717525348162823322332451878123841764732425130678457369122086249484272199605949040550891930281138894887416144, 12135649862560899757550450745105186282083754335461612515642859707126192684953796683897037358603542632753255782186264601232844574501719596205191675457515474030388439215537190, 1587422404015448185220253400237693768993510443629761127174028558791752939797937735912078595114611124626751582080907262270357513795083788826520620154365159678473321902285699, 33554400504433462166249347927191643766983009013740064988123530197803345253917122946625189258390008579680512541482649296448537709225597542846004781900039287153838947798167, 53909012613235071040179314022165936824565793983590365853582975057917578747657239626585439054309598741057195195897223431168428183258616985833765280240074285234140433887],
  [91231128231110367555882146629064700624871026770881257619662028244738557379412266808911819199932736001847196857749847967739474785023549668704149271965521396513376300006878812, 85382073449616343385322581602352169104910961905990436540939268783885773196397064702031240258921480359416260779508836084484078667579788429445737426748847927317018410308827097, 74793454797760661813572176964031187343423118160329895370005828745775972378854769315647984271945196852636058715521583702868840640164906921999963615228671747858244699044467369, 57419543033816406911787147480449088824895502072278833241837678846624009855398793482210234266402390537532518515618751690682814262217873906161233172021963730221179824842719382, 33907380017199836009887182492530018450818301928817693151105321774710636114990421569078277013123927164426546668906300517447523255082383931713686398483740230131712888749332538, 11923767674453115072552933858911236369598506314334760299780717208891823742106459781507708984873848391264759386466470471179717675918509614497512708628912237132377515147024561, 1533963902508811917717166115070235267675415808990963957547437803634941011208783098185326123144673789815230227051560921786480035392837547629641289261051106927902493043279981, 31510758043092646777331708943760271950463676390964386064058528662853388930394717929107256533828982025516414257104366350275009157322059163798970966425506973518780770473477, 49099386354390075851892988163093372397310167825185377972496171408247567637365585135965203850419641385120477532916082081385180199858622728966503026929016182175449221116],
  [91179899561014145871966087578628445013443097315924211733842667285626320498449880551223177043863650815973688285346027859937180156397094317029870584811145586168096493251443839, 85286266698058741264158029415894924459070437539602974842165191020716673857359974466526871569612693043976775120027176210676060828521459088956173607331485024465647673210104803, 74625892842690314817914473378966987389171289071360324389822784204671128209660899595304657051443550276912575387261406138510987136074748563517125297551140274595896260846441868, 57163165299576967716164395335471894593492722210325731289503403663442525746867442544608256338881028258920794291959970027929730154802920314633940835072561537350291307825225700, 33606777312800124926261155941537768379178908209414748622437487076998519670171644053657797140486594563666946175704310704805369263418732357473316335106549765124036880957018345, 11715627065728594405557289373332992623034033280471887007086678931454355084235137794670667897117106567600519806267870317072122482781348334583290386612462889971973063775340527, 1482333647642654819238997149195663128153188649582824561410007487209863231228649843429515573070591169052924275297048696185357039596540239445611269176161916954188264403068253, 29595097775098129738958175512961570359488537309372174264618739027664014824481089136346312977636972295269643960567646232049030484748433407655065273968289106392439074093206, 44741883219599948636695673601768720171701828911544287414550446875025239404117767881975063567695783569340597526606467847109836796658888866983590721107449702556290620029],
  [91128699903505424325490031109471241056898409801585953664429846269504124650541106499589956114166049952644991322669126745580179519694353799673404373840858878724308291264669346, 85190568379786762757701544897373261865805866640611987448678093746604660016593584007752837834916556452009406514981890947332605694697160061479882483967231210052740250643840129, 74458709585552296979675425255917698159694652052048365255719259987400022247982041589107102378413748067489895824521461160736214198387717702087418310138370884245532175416836795, 56907942742006190165037179235017572082191667459875215158451126290910273726556461253213745029900757361280918104297160507106947069695283285391602756340587154195869675550838990, 33308865784985639640540584013005159400597262320328397182453909099953129821560038316704042092212598486889576948573622649527966221108869984948922493724231460740210484294615663, 11511161332397211327592497082421708324814462078941847607047061479662433287512543215333751409546622719552775225588173644150908209496120339899620617950277292325509447839428174, 1432468309156653983124940241968589641032191198178182802118490134314170055677971768438683356204738058087284630212754179331254862944437407285837284106118906383732600346490045, 27799217675059068908217363504119857521377619963630933554826902386994914887674153409634692464872970387232665474918375258585035491189453537412026086938943901136251080229539, 40791922883602539697317383555964925669102181356488220794175816393089467939308937856069863344840904748062936361667368705332815226194365220838146047226957241200678885921],
  [91077529242033844202914439441181058390678421688953776875369563697361107326696860123356257032930082067209895998381905660702612603013955924396688630436036207348136811841610918, 85094978371176067556801424267740527987719392025255446765363503920499157973996053217666330997890920496066591482529904987253410736406244286802090607817821436570933759882248075, 74291904164081505550869077239820109068642607833274271449313203520206842999353895723377848749485403851041437204599203403933845914959036564828160049035674593079574793204840825, 56653870115910503423760797741518186626542800737075337877842309424317167163652480572621096954133851898803797537606917771582806177387052178308705996514833993364260481879202410, 33013621140753128855801136661380492093120393403356476429976693218552054166678329964112288619863328034771231485211904345204887599710425227542909934584782479110042336670226636, 11310304969299446308820482462626978441428735869377956520131851503090638965889775728873056800325882254742340091803509996759493837744532716787573327301586729356156263550139483, 1384306774228964670701470162587833107586099712500981252642876955834749042223312752315150982148923532410761884259604869883858868982888472501126659354430942151087884095877949, 26115451569052866753994179669897775724372484611045547728365834223899048309635588411294639014230521348820388136993867436484034866975784118923248392311096885602261692484533, 37209514599521252136746155878820242558427393907224622105634239963306949410771090474385006723368229477207764545319379503391418090958461661959609693901676498110261564879],
  [91026387560058546968634891404295539678988999376905734178740547472349335732734096468214356139396036937786738795877583729388684530325343793491534669325853683723252067526179975, 84999496548744146321689079540332625229054818190338614737810748632074118182704349620192289645119828619304223945420722789789728960091734652760224025962677273556196527218608559, 74125475717988714202071865888842777860089268823994140739170850618755536577136911659362249364193044532576086030575730476714627459370667634094675282562268635547322592066840762, 56400942200070275524121624277088020599774853960015832113944554545725207459474178994234925751410185170158756795094778129766241125488171817710140697400203349030287610238677947, 32721019307942826541003475965409718880823997148785127377309736465118922708916076642771091484879316554418851957449995679813528911409331031651465624441240279370123653231676258, 11112993648410830482562121295557228007256223015803990739615851114522589983097957018956473547727623820524703654382105171750815515432861884461643760783067418263116962992496892, 1337790069125347196903048970064897165303187518687206613881064220422806193478278708027494452896163660460703097625325419373897482777381708976752419318132354913942608524246440, 24536633558110920575233605165153330835940129208791417762433882161553775075678176679634097561843006439793016398016725195780754410134534909919370176964596877974653014201339, 33958766094664010623029722662344710995748108058889615617330436224126606584124327655784367259269245307925094800462329522961301967206023205592746914467878293150944314903],
  [90975274841048168782213863065267438267314078749141940093434698251099493089852421108843309021162124914712129815200667220458364296879911756767367390382264792473834840745071638, 84904122789150157075524848322859115809685024872865622978418852877848797469582230589975266481130177170328790648373611250343599069714392350451534483015933819649537150124217015, 73959423388956020223081131254373291101869150081548734113653840488039857870111976368130536340983467014551870150537623993033965803255972452189446222963059420894135056336922823, 56149153797129610129674515651837190507363511766188066069460333256320452034673069871133361184494511595239583770087098828914964888420199574158802899797682177071597127397990466, 32431036433218553536359009955860033172172064649830483150824340970784097551517335883385657856994087834806404013025793870209468855683848923062920546576392529060991844116292719, 10919164197541377453052030388883194690491693026168822324956822268639766558428220848863767738367014878516530482485566357821488026457179765607427115921246218556713696232683950, 1292861283638369830901634056133061106363322001176511048012550463176894889574802386682737950607590275235872706683937084716506588671872956827889562607759590225608574150450961, 23056064836012663663302961967994804886403063545315508185559148649414348313863088940690743151197856555260629404538656418480106234554754702292735357463538725897702875441378, 31007446848275347465418186647210932326735235522523358225804347275023579990423648994203035821035962690773789852902205179221563300421327897974054293458249620156240514617],
  [90924191068480835018791704797540489539852427435758449225765694179023648561462921519012337239022472594861750438442759915823541055059355462491943766757864713648234901527633733, 84808856969194761787568336916282311098401601984664548902281838164656529951656022523089018819162267805988636742461117784023444365657105332044365901887996621924742273773706736, 73793746320632302264850878991468308850645973274582898938064581620004481064935184994237497510542812311455910036267302551564745707947059531230336578867157700041821556160798385, 55898499733486652408825292521151523829177190625656237497001112523496339685859946670625358526191090353366619071265269336850152863181216428562175789040154081904130917112826354, 32143648880066391714591330825107753903439653797824881398209098768184072974185147861731529316187285946447668937595506944832235336555738119419978589432983740184053760969507307, 10728754579422774379093360568532754893482205078575438742846197295401304443996706718517943047492532443432616621448148449812214883827628294212192042529316794509447650328537111, 1249465498216663763598206702663602246712539818376394734764620686020230523761292967265281044529369205737084225589823299319029842160942593946327725343830999926715217226809236, 21667482738382039370037727716242525420992411786830680745095532750023360019749578376489440891529016574633753383616208362333285849573612226286040151422853284564758864093175, 28326599544747134085180608783195919200863112024120371242426592077383834370872430807888028167910853648002286422249344924926824712039175470329358247958487585212822974321],
  [90873136225844154792674963654418821785796926925004429347586106183338398775148195363252981913087563797848255346132356156076314661369921531628617673684241523524539965482086833, 84713698965819963145752594275338515288501189084460870822514925387164115620569903194307849417639979547552787315689464218885307265201516915551904486182813395000313674917467361, 73628443658628688598194259150492718506056818023691123137860288112776263124083633988907056377849791894326727890913893405082454645697852125442927692057531181102556347323961328, 55648974859184401653418253680969375181479491129966310830595668633422578280733098603196488457711120316607329943163238507669505897931965506389658051960655668814157110914804379, 31858833226811759133532214060118108704916581077489388088045029229865460257802963725730681061359018618897459791824541679089224334974133240622595435669606120858056183013768048, 10541703871176236469267178519599482657244096766784801982880126419756589164355136873878253159051365243755757673961790336824839990015993149037774910573499117090375690153391780, 1207549713687813038658550454473088735474700572358146988229108373647703594280112846264029774065989701236975151587837545929983655636645000884667059129491745408105589157927236, 20365031871287986740210893905462661023067840492051442333205409541672574784680724918343612979479885879609469747519685412328577908200995680917312213641137850116006502357924, 25890194223115000528537080079139627862158845531699480238891304150734791683872806875189909180807815024996794385793199247826995794870160103613438949733658741991369243153],
  [90822110296635215484100200980616235935632578157967253695171912831615345129076887282397091210220611230965048672666052016066029793811004264231327792808444333345655320306064752, 84618648656108941518441672229582767014130469202978224542625915731940297694021324414795839483126801385173191733007624866641604511477208010471432670045158668398487989172018554, 73463514550514035864799434573741528728456182488921362859030647736797328163258075664763278298452999446611789153084513487146998903981908686814455165516921335031403703477112428, 55400574047802028291591893326620752696097641830516408625981813429925660105005614794355808090034055184362067340899034631778431351711609334358023023946148890532540531987133334, 31576566264654716206825865999277773170932343071193601695909814144046120189451306989271986173974831107353074315943834250460535402515827357607007540910496093572974169482656123, 10357952244154059474423282802648525942505333145981972188346924426380165375602164826130773052211427430371185788003650305454427074687774308883706054818965346233038944643014550, 1167062783481938459562192613807507097859646525919234251140332314521669690561627808771807898081417256679859466847430443173908028281836565282717174154335326919736820259287489, 19143237177980822677427624251893890963822959095673790473871631393461999655543571860167346959647206627115329512260190148943772582015653547003016642088263799766234275362478, 23674820283765183740276292444159657223021826285776402345642904466108966820140172401948844935892907555878097784790585486923422899887266131751727528857105519699248616397],
  [90771113264360577269171456280832465016150042847078999448132602068025620271528471638207867241081808473333244299739664327969521309252529480361252130692499541803532373929138997, 84523705917285892105151384883841353913574966105024717551608020499563955919815833986039167352456758570231257620942712989574708715016410791305953631294518445722789271857838858, 73298958145810418296162584593367017078489998137785187299852541799199397860163308541337132046428308974231258847889187854924513869298760906825719393909105093506806481521661160, 55153292196346692954617768089210931847051695207064332144893591230284418372427272807828074079873891873221767602302253966783641681640453602139098519891342310318399169042266270, 31296824995723334496035799059846067875034441607041790837686372978369335642477474874179296039860163139099276323999550712120195033786531211720470873104435766102825135325592037, 10177440944148032805294499915108451666049346331934387535941889878760696952269765991596480767991792449443688596874498088574739028981745750078664557302469948889846763209218238, 1127955348266384631535585453108072734472198827957282410226048451609822721448335381623340955311593708343355434912160771167718877575162186884442215044775487353303965536147993, 17996978812103865941123254204450212991416757934389866012471951005961830611872900900937050336049627468708531932813075098988286996209271566213780536772356874193953824884418, 21659412076823208585518104957415480302080048532292884291036510439111314447648286005602371125015390387032779951536062084794791142364578309715380353263602426917009628300],
  [90720145112536267652969509444241748772613003981063701231380404783008422687088468624913688870839691858797322970214771929263181950961592657988685502109579361200392966151586955, 84428870626715862276013337352716981617630566508702567248530367463001717433763613605548712281583171761569493919356242451461660011649954339871284026427724030002517687213634058, 73134773595988627376098728889917527855432906140710286727797655403579071777805575328302602693997214565170648985145570373172764587898480943579730958181556137247770459574999933, 54907124225145865268338050085659959399801402973436156310324541707549893939611920510325826412509279738347445200493919904662833492482509145331721177458145391586751525720620606, 31019586631144961289293644121644066385272236491152138104750760229452734331256101548831585477073737806381150844600735402472282964955345044107796957914897330602290971903974809, 10000112271958001581843853383323993871160683927768594676419688154099060488383083980958500380103973401307122652684575627656585999048974218557828350223201675143114860937206228, 1090179772905148059928550534566943242299008224359508152028864131568689693011062978924351150036264900179790980946952378315575931486674177775808912057767879464107367524408073, 16921468694754730724429326167151383739799707875002335805184945152503532244960935768914073039379442223798208602195762029271621802292737804421401697628569402803095355305855, 19825004293035232987697283527876095118449244377253350556851348974454426030260395451793575811887129473126428673214192690020887263003445945375777834098346294961182178456]]

end TNS.Data
