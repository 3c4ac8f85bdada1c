/-
Generated by scripts/gen_ttsums.py.  Proof material, not part of the model: weights for the rows of the
T-T table, and weighted partial sums over its rows.
-/

set_option autoImplicit false
set_option maxRecDepth 100000

namespace TNS.Data

noncomputable def accA0 : List Nat := [0, 0, 0, 0, 0, 0, 0, 0, 0, 0, 0, 0, 0, 0, 0, 0, 0, 0, 0, 0, 0, 0, 0, 0, 0, 0, 0, 0, 0, 0, 0, 0, 0, 0, 0, 0, 0, 0, 0, 0]
noncomputable def wA0 : List Nat := [2104008016030, 4208016032060, 4208016032070, 4208016032070, 4208016032100, 4208016032070, 4208016032000, 4208016032100, 4208016032100, 4208016032000, 4208016032100, 4208016032100, 4208016032000, 4208016032000, 4208016032100, 4208016032100, 4208016032000, 4208016032100, 4208016032100, 4208016032000, 4208016032100, 4208016032100, 4208016032000, 4208016032100, 4208016032100]
noncomputable def accA1 : List Nat := [422180092836589466180715381800000000000000000000000000000000000000000000000000000000000000000000000000000, 422430301162903107836779447700000000000000000000000000000000000000000000000000000000000000000000000000000, 420435255879697616143055139500000000000000000000000000000000000000000000000000000000000000000000000000000, 418660560117923838328261694200000000000000000000000000000000000000000000000000000000000000000000000000000, 417357461688703544504527225800000000000000000000000000000000000000000000000000000000000000000000000000000, 416421754760176893672496694000000000000000000000000000000000000000000000000000000000000000000000000000000, 415737428991955795461088928000000000000000000000000000000000000000000000000000000000000000000000000000000, 415221861296558420712849009700000000000000000000000000000000000000000000000000000000000000000000000000000, 414820837711379947820465298800000000000000000000000000000000000000000000000000000000000000000000000000000, 414499132631348035432804744100000000000000000000000000000000000000000000000000000000000000000000000000000, 414233574223286185450702119500000000000000000000000000000000000000000000000000000000000000000000000000000, 414008619862261588513563647800000000000000000000000000000000000000000000000000000000000000000000000000000, 413813621898082210951898715900000000000000000000000000000000000000000000000000000000000000000000000000000, 413641134807372724800156689000000000000000000000000000000000000000000000000000000000000000000000000000000, 413485851813697855910432558500000000000000000000000000000000000000000000000000000000000000000000000000000, 413343923985092406370219312600000000000000000000000000000000000000000000000000000000000000000000000000000, 413212515218972196250239558700000000000000000000000000000000000000000000000000000000000000000000000000000, 413089505469507192193335982900000000000000000000000000000000000000000000000000000000000000000000000000000, 412973289017344950474124518400000000000000000000000000000000000000000000000000000000000000000000000000000, 412862634892900535051997661800000000000000000000000000000000000000000000000000000000000000000000000000000, 412756588731258657032010465800000000000000000000000000000000000000000000000000000000000000000000000000000, 412654402737451656117307568600000000000000000000000000000000000000000000000000000000000000000000000000000, 412555485045825113948367797500000000000000000000000000000000000000000000000000000000000000000000000000000, 412459362660607311119527908500000000000000000000000000000000000000000000000000000000000000000000000000000, 412365654040212239104422678600000000000000000000000000000000000000000000000000000000000000000000000000000, 412274048612114929685910479100000000000000000000000000000000000000000000000000000000000000000000000000000, 412184291330532087707655022400000000000000000000000000000000000000000000000000000000000000000000000000000, 412096170934508895876237303200000000000000000000000000000000000000000000000000000000000000000000000000000, 412009510951117197167536002500000000000000000000000000000000000000000000000000000000000000000000000000000, 411924162752278044269432756300000000000000000000000000000000000000000000000000000000000000000000000000000, 411840000156510815579563591000000000000000000000000000000000000000000000000000000000000000000000000000000, 411756915207168795242886032000000000000000000000000000000000000000000000000000000000000000000000000000000, 411674814846406553505612884900000000000000000000000000000000000000000000000000000000000000000000000000000, 411593618280595287247209348000000000000000000000000000000000000000000000000000000000000000000000000000000, 411513254880023875520174568100000000000000000000000000000000000000000000000000000000000000000000000000000, 411433662495343853636725159800000000000000000000000000000000000000000000000000000000000000000000000000000, 411354786098354986716240955500000000000000000000000000000000000000000000000000000000000000000000000000000, 411276576679948825615364362700000000000000000000000000000000000000000000000000000000000000000000000000000, 411198990351957297393073221400000000000000000000000000000000000000000000000000000000000000000000000000000, 411121987607970967992133740700000000000000000000000000000000000000000000000000000000000000000000000000000]
noncomputable def wA1 : List Nat := [4208016032000, 4208016032100, 4208016032100, 4208016032000, 4208016032100, 4208016032100, 4208016032000, 4208016032100, 4208016032100, 4208016032000, 4208016032100, 4208016032100, 4208016032000, 4208016032100, 4208016032100, 4208016032000, 4208016032000, 4208016032100, 4208016032100, 4208016032000, 4208016032100, 4208016032100, 4208016032500, 4208016032500, 4208016032000]
noncomputable def accA2 : List Nat := [1267539707282013124375443381800000000000000000000000000000000000000000000000000000000000000000000000000000, 1267490221367305588242475447700000000000000000000000000000000000000000000000000000000000000000000000000000, 1265321751226631452690699139500000000000000000000000000000000000000000000000000000000000000000000000000000, 1263383338260644418416140694200000000000000000000000000000000000000000000000000000000000000000000000000000, 1261909641712975148260172225800000000000000000000000000000000000000000000000000000000000000000000000000000, 1260797260663132347777674694000000000000000000000000000000000000000000000000000000000000000000000000000000, 1259933170107347026245162928000000000000000000000000000000000000000000000000000000000000000000000000000000, 1259237176821533439558223009700000000000000000000000000000000000000000000000000000000000000000000000000000, 1258656665099923477270392298800000000000000000000000000000000000000000000000000000000000000000000000000000, 1258157357869915407377408744100000000000000000000000000000000000000000000000000000000000000000000000000000, 1257716594430554651971243119500000000000000000000000000000000000000000000000000000000000000000000000000000, 1257319067214201225309741647800000000000000000000000000000000000000000000000000000000000000000000000000000, 1256954196156660589246943715900000000000000000000000000000000000000000000000000000000000000000000000000000, 1256614505226314942564233689000000000000000000000000000000000000000000000000000000000000000000000000000000, 1256294602162103643604577558500000000000000000000000000000000000000000000000000000000000000000000000000000, 1255990523903639317084915312600000000000000000000000000000000000000000000000000000000000000000000000000000, 1255699307426873585558726558700000000000000000000000000000000000000000000000000000000000000000000000000000, 1255418702355261789267089982900000000000000000000000000000000000000000000000000000000000000000000000000000, 1255146974649621479344339518400000000000000000000000000000000000000000000000000000000000000000000000000000, 1254882770032495209643784661800000000000000000000000000000000000000000000000000000000000000000000000000000, 1254625017377421561982898465800000000000000000000000000000000000000000000000000000000000000000000000000000, 1254372859324646165677283568600000000000000000000000000000000000000000000000000000000000000000000000000000, 1254125601768621399057216797500000000000000000000000000000000000000000000000000000000000000000000000000000, 1253882676622386215220165908500000000000000000000000000000000000000000000000000000000000000000000000000000, 1253643614060472813271905678600000000000000000000000000000000000000000000000000000000000000000000000000000, 1253408021608856508835077479100000000000000000000000000000000000000000000000000000000000000000000000000000, 1253175568245477505073431022400000000000000000000000000000000000000000000000000000000000000000000000000000, 1252945972197970743582270303200000000000000000000000000000000000000000000000000000000000000000000000000000, 1252718991503255036690875002500000000000000000000000000000000000000000000000000000000000000000000000000000, 1252494416643427773214276756300000000000000000000000000000000000000000000000000000000000000000000000000000, 1252272064758903753886609591000000000000000000000000000000000000000000000000000000000000000000000000000000, 1252051775066192118088971032000000000000000000000000000000000000000000000000000000000000000000000000000000, 1251833405204564237226646884900000000000000000000000000000000000000000000000000000000000000000000000000000, 1251616828301563752653293348000000000000000000000000000000000000000000000000000000000000000000000000000000, 1251401930602679242430873568100000000000000000000000000000000000000000000000000000000000000000000000000000, 1251188609542083139301974159800000000000000000000000000000000000000000000000000000000000000000000000000000, 1250976772160392454535922955500000000000000000000000000000000000000000000000000000000000000000000000000000, 1250766333803068213616690362700000000000000000000000000000000000000000000000000000000000000000000000000000, 1250557217039467830273457221400000000000000000000000000000000000000000000000000000000000000000000000000000, 1250349350759761144711772740700000000000000000000000000000000000000000000000000000000000000000000000000000]
noncomputable def wA2 : List Nat := [4208016032000, 4208016032000, 4208016032000, 4208016032000, 4208016032000, 4208016032000, 4208016032000, 4208016032000, 4208016032000, 4208016032000, 4208016032000, 4208016032000, 4208016032000, 4208016032000, 4208016032000, 4208016032000, 4208016032000, 4208016032000, 4208016032000, 4208016032000, 4208016032000, 4208016032000, 4208016032000, 4208016032000, 4208016032000]
noncomputable def accA3 : List Nat := [2412052298146610750343443381800000000000000000000000000000000000000000000000000000000000000000000000000000, 2411553088548219406472875447700000000000000000000000000000000000000000000000000000000000000000000000000000, 2409107423659112922097099139500000000000000000000000000000000000000000000000000000000000000000000000000000, 2406906973998312414209100694200000000000000000000000000000000000000000000000000000000000000000000000000000, 2405162884605811573334732225800000000000000000000000000000000000000000000000000000000000000000000000000000, 2403772555019186347339274694000000000000000000000000000000000000000000000000000000000000000000000000000000, 2402626869611042126803882928000000000000000000000000000000000000000000000000000000000000000000000000000000, 2401648845879669287030863009700000000000000000000000000000000000000000000000000000000000000000000000000000, 2400787976300531456989112298800000000000000000000000000000000000000000000000000000000000000000000000000000, 2400011223570665787584448744100000000000000000000000000000000000000000000000000000000000000000000000000000, 2399296580982431891343083119500000000000000000000000000000000000000000000000000000000000000000000000000000, 2398629025652677593815661647800000000000000000000000000000000000000000000000000000000000000000000000000000, 2397998039032637762732383715900000000000000000000000000000000000000000000000000000000000000000000000000000, 2397396076882626092904073689000000000000000000000000000000000000000000000000000000000000000000000000000000, 2396817607056314437791457558500000000000000000000000000000000000000000000000000000000000000000000000000000, 2396258490303978723393715312600000000000000000000000000000000000000000000000000000000000000000000000000000, 2395715572345769112253126558700000000000000000000000000000000000000000000000000000000000000000000000000000, 2395186408978031288245969982900000000000000000000000000000000000000000000000000000000000000000000000000000, 2394669076892217390561299518400000000000000000000000000000000000000000000000000000000000000000000000000000, 2394162040988844264385224661800000000000000000000000000000000000000000000000000000000000000000000000000000, 2393664059660287540225458465800000000000000000000000000000000000000000000000000000000000000000000000000000, 2393174116133343262652643568600000000000000000000000000000000000000000000000000000000000000000000000000000, 2392691367976126545724416797500000000000000000000000000000000000000000000000000000000000000000000000000000, 2392215109489200376699525908500000000000000000000000000000000000000000000000000000000000000000000000000000, 2391744743370595445604385678600000000000000000000000000000000000000000000000000000000000000000000000000000, 2391279759114382981684037479100000000000000000000000000000000000000000000000000000000000000000000000000000, 2390819716397769486361111022400000000000000000000000000000000000000000000000000000000000000000000000000000, 2390364232179790960890430303200000000000000000000000000000000000000000000000000000000000000000000000000000, 2389912970571671092780155002500000000000000000000000000000000000000000000000000000000000000000000000000000, 2389465634851739035701316756300000000000000000000000000000000000000000000000000000000000000000000000000000, 2389021961088688557555409591000000000000000000000000000000000000000000000000000000000000000000000000000000, 2388581713028008782841611032000000000000000000000000000000000000000000000000000000000000000000000000000000, 2388144677946692931732886884900000000000000000000000000000000000000000000000000000000000000000000000000000, 2387710663280357247786413348000000000000000000000000000000000000000000000000000000000000000000000000000000, 2387279493857191837054233568100000000000000000000000000000000000000000000000000000000000000000000000000000, 2386851009603191313516054159800000000000000000000000000000000000000000000000000000000000000000000000000000, 2386425063636992372629682955500000000000000000000000000000000000000000000000000000000000000000000000000000, 2386001520676110673917170362700000000000000000000000000000000000000000000000000000000000000000000000000000, 2385580255689625800169777221400000000000000000000000000000000000000000000000000000000000000000000000000000, 2385161152758185993077532740700000000000000000000000000000000000000000000000000000000000000000000000000000]
noncomputable def wA3 : List Nat := [4208016032000, 4208016032000, 4208016033000, 4208016033000, 4208016032000, 4208016032000, 4208016032000, 4208016032000, 4208016032000, 4208016032000, 4208016032000, 4208016032000, 4208016032000, 4208016032000, 4208016032000, 4208016032000, 4208016032000, 4208016032000, 4208016032000, 4208016032000, 4208016032000, 4208016032000, 4208016032000, 4208016032000, 4208016032000]
noncomputable def accA4 : List Nat := [3754741871102448247140343381800000000000000000000000000000000000000000000000000000000000000000000000000000, 3753701058095033276103875447700000000000000000000000000000000000000000000000000000000000000000000000000000, 3750902130576475401016799139500000000000000000000000000000000000000000000000000000000000000000000000000000, 3748356597218886864093100694200000000000000000000000000000000000000000000000000000000000000000000000000000, 3746251043570020352859832225800000000000000000000000000000000000000000000000000000000000000000000000000000, 3744485639866596650850474694000000000000000000000000000000000000000000000000000000000000000000000000000000, 3742956885484864882229282928000000000000000000000000000000000000000000000000000000000000000000000000000000, 3741592179476887052712863009700000000000000000000000000000000000000000000000000000000000000000000000000000, 3740343912271884470973112298800000000000000000000000000000000000000000000000000000000000000000000000000000, 3739180835469412205308748744100000000000000000000000000000000000000000000000000000000000000000000000000000, 3738081993113111511139083119500000000000000000000000000000000000000000000000000000000000000000000000000000, 3737032943821778468969461647800000000000000000000000000000000000000000000000000000000000000000000000000000, 3736023459124970709904983715900000000000000000000000000000000000000000000000000000000000000000000000000000, 3735046106738110062634773689000000000000000000000000000000000000000000000000000000000000000000000000000000, 3734095359370077275994957558500000000000000000000000000000000000000000000000000000000000000000000000000000, 3733167019743869596300715312600000000000000000000000000000000000000000000000000000000000000000000000000000, 3732257840092669809163326558700000000000000000000000000000000000000000000000000000000000000000000000000000, 3731365264241304197651169982900000000000000000000000000000000000000000000000000000000000000000000000000000, 3730487248860612434187899518400000000000000000000000000000000000000000000000000000000000000000000000000000, 3729622137165807755078124661800000000000000000000000000000000000000000000000000000000000000000000000000000, 3728768567995322302344458465800000000000000000000000000000000000000000000000000000000000000000000000000000, 3727925409353319534019243568600000000000000000000000000000000000000000000000000000000000000000000000000000, 3727091709101990995786316797500000000000000000000000000000000000000000000000000000000000000000000000000000, 3726266657889207168770825908500000000000000000000000000000000000000000000000000000000000000000000000000000, 3725449560976387519533585678600000000000000000000000000000000000000000000000000000000000000000000000000000, 3724639816532714538916237479100000000000000000000000000000000000000000000000000000000000000000000000000000, 3723836898794995609258511022400000000000000000000000000000000000000000000000000000000000000000000000000000, 3723040344855805648877730303200000000000000000000000000000000000000000000000000000000000000000000000000000, 3722249744175322332550655002500000000000000000000000000000000000000000000000000000000000000000000000000000, 3721464730241928921516016756300000000000000000000000000000000000000000000000000000000000000000000000000000, 3720684973840737660033109591000000000000000000000000000000000000000000000000000000000000000000000000000000, 3719910177584863964637711032000000000000000000000000000000000000000000000000000000000000000000000000000000, 3719140071459583580046886884900000000000000000000000000000000000000000000000000000000000000000000000000000, 3718374409134691907667313348000000000000000000000000000000000000000000000000000000000000000000000000000000, 3717612964929562620253033568100000000000000000000000000000000000000000000000000000000000000000000000000000, 3716855531252010892505354159800000000000000000000000000000000000000000000000000000000000000000000000000000, 3716101916465477307286182955500000000000000000000000000000000000000000000000000000000000000000000000000000, 3715351943077289507739970362700000000000000000000000000000000000000000000000000000000000000000000000000000, 3714605446192728799783577221400000000000000000000000000000000000000000000000000000000000000000000000000000, 3713862272195352603164332740700000000000000000000000000000000000000000000000000000000000000000000000000000]
noncomputable def wA4 : List Nat := [4208016032000, 4208016032000, 4208016032000, 4208016032000, 4208016032000, 4208016032000, 4208016032000, 4208016032000, 4208016032000, 4208016033000, 4208016033000, 4208016032000, 4208016032000, 4208016032000, 4208016032000, 4208016032000, 4208016032000, 4208016032000, 4208016032000, 4208016032000, 4208016032000, 4208016032000, 4208016032000, 4208016032000, 4208016032000]
noncomputable def accA5 : List Nat := [5059945982397715450204043381800000000000000000000000000000000000000000000000000000000000000000000000000000, 5058697112028196640797675447700000000000000000000000000000000000000000000000000000000000000000000000000000, 5055865528579943940171599139500000000000000000000000000000000000000000000000000000000000000000000000000000, 5053289685678192030012000694200000000000000000000000000000000000000000000000000000000000000000000000000000, 5051133716588348065787832225800000000000000000000000000000000000000000000000000000000000000000000000000000, 5049301355186724309989874694000000000000000000000000000000000000000000000000000000000000000000000000000000, 5047695038325685422071582928000000000000000000000000000000000000000000000000000000000000000000000000000000, 5046246700837798235822063009700000000000000000000000000000000000000000000000000000000000000000000000000000, 5044911735791802188454412298800000000000000000000000000000000000000000000000000000000000000000000000000000, 5043660778485430632664748744100000000000000000000000000000000000000000000000000000000000000000000000000000, 5042474017776651241589683119500000000000000000000000000000000000000000000000000000000000000000000000000000, 5041337686739599297133861647800000000000000000000000000000000000000000000000000000000000000000000000000000, 5040241936622575117581083715900000000000000000000000000000000000000000000000000000000000000000000000000000, 5039179531691538167946873689000000000000000000000000000000000000000000000000000000000000000000000000000000, 5038145028120946392037357558500000000000000000000000000000000000000000000000000000000000000000000000000000, 5037134242943576355087615312600000000000000000000000000000000000000000000000000000000000000000000000000000, 5036143901093527636389726558700000000000000000000000000000000000000000000000000000000000000000000000000000, 5035171394818394815581769982900000000000000000000000000000000000000000000000000000000000000000000000000000, 5034214615810096402666199518400000000000000000000000000000000000000000000000000000000000000000000000000000, 5033271835793019661864324661800000000000000000000000000000000000000000000000000000000000000000000000000000, 5032341619868952606778158465800000000000000000000000000000000000000000000000000000000000000000000000000000, 5031422762727478575023443568600000000000000000000000000000000000000000000000000000000000000000000000000000, 5030514240934373480841916797500000000000000000000000000000000000000000000000000000000000000000000000000000, 5029615176780812173917325908500000000000000000000000000000000000000000000000000000000000000000000000000000, 5028724810609888389173385678600000000000000000000000000000000000000000000000000000000000000000000000000000, 5027842479308605539127537479100000000000000000000000000000000000000000000000000000000000000000000000000000, 5026967599518234773494711022400000000000000000000000000000000000000000000000000000000000000000000000000000, 5026099654327777262945230303200000000000000000000000000000000000000000000000000000000000000000000000000000, 5025238182664187756261055002500000000000000000000000000000000000000000000000000000000000000000000000000000, 5024382770756883863243616756300000000000000000000000000000000000000000000000000000000000000000000000000000, 5023533045219433539448509591000000000000000000000000000000000000000000000000000000000000000000000000000000, 5022688667381369315521911032000000000000000000000000000000000000000000000000000000000000000000000000000000, 5021849328626152667532986884900000000000000000000000000000000000000000000000000000000000000000000000000000, 5021014746513751822436713348000000000000000000000000000000000000000000000000000000000000000000000000000000, 5020184661568122096177633568100000000000000000000000000000000000000000000000000000000000000000000000000000, 5019358834538911649339554159800000000000000000000000000000000000000000000000000000000000000000000000000000, 5018537044112948800172182955500000000000000000000000000000000000000000000000000000000000000000000000000000, 5017719084950173496352070362700000000000000000000000000000000000000000000000000000000000000000000000000000, 5016904766010621833303677221400000000000000000000000000000000000000000000000000000000000000000000000000000, 5016093909105983214676132740700000000000000000000000000000000000000000000000000000000000000000000000000000]
noncomputable def wA5 : List Nat := [4208016032000, 4208016032000, 4208016032000, 4208016032000, 4208016032000, 4208016032000, 4208016032000, 4208016032000, 4208016032000, 4208016032000, 4208016032000, 4208016032000, 4208016032000, 4208016032000, 4208016032000, 4208016033000, 4208016033000, 4208016032000, 4208016032000, 4208016032000, 4208016032000, 4208016032000, 4208016032000, 4208016032000, 4208016032000]
noncomputable def accA6 : List Nat := [6372095584640198504743543381800000000000000000000000000000000000000000000000000000000000000000000000000000, 6370502449415098321798675447700000000000000000000000000000000000000000000000000000000000000000000000000000, 6367512656304403786695099139500000000000000000000000000000000000000000000000000000000000000000000000000000, 6364787979804200636980900694200000000000000000000000000000000000000000000000000000000000000000000000000000, 6362468032788960816991932225800000000000000000000000000000000000000000000000000000000000000000000000000000, 6360458904976360882500674694000000000000000000000000000000000000000000000000000000000000000000000000000000, 6358668309378230280425682928000000000000000000000000000000000000000000000000000000000000000000000000000000, 6357032337451088925531963009700000000000000000000000000000000000000000000000000000000000000000000000000000, 6355509135325342718006412298800000000000000000000000000000000000000000000000000000000000000000000000000000, 6354071031787425016810648744100000000000000000000000000000000000000000000000000000000000000000000000000000, 6352699201000153398521383119500000000000000000000000000000000000000000000000000000000000000000000000000000, 6351380410638747916512061647800000000000000000000000000000000000000000000000000000000000000000000000000000, 6350105067065005643424983715900000000000000000000000000000000000000000000000000000000000000000000000000000, 6348866019596885282942073689000000000000000000000000000000000000000000000000000000000000000000000000000000, 6347657808057336081270157558500000000000000000000000000000000000000000000000000000000000000000000000000000, 6346476174419490234478015312600000000000000000000000000000000000000000000000000000000000000000000000000000, 6345317736254126279226326558700000000000000000000000000000000000000000000000000000000000000000000000000000, 6344179762391094986938169982900000000000000000000000000000000000000000000000000000000000000000000000000000, 6343060014975174907083499518400000000000000000000000000000000000000000000000000000000000000000000000000000, 6341956636032966369413424661800000000000000000000000000000000000000000000000000000000000000000000000000000, 6340868064312159992162058465800000000000000000000000000000000000000000000000000000000000000000000000000000, 6339792973484426847867943568600000000000000000000000000000000000000000000000000000000000000000000000000000, 6338730225421437078715616797500000000000000000000000000000000000000000000000000000000000000000000000000000, 6337678834458135032906425908500000000000000000000000000000000000000000000000000000000000000000000000000000, 6336637939757552160347685678600000000000000000000000000000000000000000000000000000000000000000000000000000, 6335606783631531552500437479100000000000000000000000000000000000000000000000000000000000000000000000000000, 6334584694449371252481211022400000000000000000000000000000000000000000000000000000000000000000000000000000, 6333571072960139524790730303200000000000000000000000000000000000000000000000000000000000000000000000000000, 6332565381296602540723755002500000000000000000000000000000000000000000000000000000000000000000000000000000, 6331567134037447328610116756300000000000000000000000000000000000000000000000000000000000000000000000000000, 6330575890902252585200609591000000000000000000000000000000000000000000000000000000000000000000000000000000, 6329591250715943105402011032000000000000000000000000000000000000000000000000000000000000000000000000000000, 6328612846404642449201586884900000000000000000000000000000000000000000000000000000000000000000000000000000, 6327640340787079885404713348000000000000000000000000000000000000000000000000000000000000000000000000000000, 6326673423070876020318333568100000000000000000000000000000000000000000000000000000000000000000000000000000, 6325711805851668352998954159800000000000000000000000000000000000000000000000000000000000000000000000000000, 6324755222556547967035182955500000000000000000000000000000000000000000000000000000000000000000000000000000, 6323803425274219018340170362700000000000000000000000000000000000000000000000000000000000000000000000000000, 6322856182861904014994477221400000000000000000000000000000000000000000000000000000000000000000000000000000, 6321913279307119454676332740700000000000000000000000000000000000000000000000000000000000000000000000000000]
noncomputable def wA6 : List Nat := [4208016032000, 4208016032000, 4208016032000, 4208016032000, 4208016032000, 4208016032000, 4208016032000, 4208016032000, 4208016032000, 4208016032000, 4208016032000, 4208016032000, 4208016032000, 4208016032000, 4208016032000, 4208016032000, 4208016032000, 4208016032000, 4208016032000, 4208016032000, 4208016032000, 4208016033000, 4208016033000, 4208016032000, 4208016032000]
noncomputable def accA7 : List Nat := [7734356217912179042439743381800000000000000000000000000000000000000000000000000000000000000000000000000000, 7732333994173516001390275447700000000000000000000000000000000000000000000000000000000000000000000000000000, 7729109263945466182607299139500000000000000000000000000000000000000000000000000000000000000000000000000000, 7726159801434390347781500694200000000000000000000000000000000000000000000000000000000000000000000000000000, 7723599546320580379152932225800000000000000000000000000000000000000000000000000000000000000000000000000000, 7721336987639036367800974694000000000000000000000000000000000000000000000000000000000000000000000000000000, 7719285333339593272656782928000000000000000000000000000000000000000000000000000000000000000000000000000000, 7717385016330570664978463009700000000000000000000000000000000000000000000000000000000000000000000000000000, 7715597057345851170309712298800000000000000000000000000000000000000000000000000000000000000000000000000000, 7713895548263678135361248744100000000000000000000000000000000000000000000000000000000000000000000000000000, 7712262682748582127608283119500000000000000000000000000000000000000000000000000000000000000000000000000000, 7710685775053302401854361647800000000000000000000000000000000000000000000000000000000000000000000000000000, 7709155485368425491462683715900000000000000000000000000000000000000000000000000000000000000000000000000000, 7707664739205614790500873689000000000000000000000000000000000000000000000000000000000000000000000000000000, 7706208047091191128834457558500000000000000000000000000000000000000000000000000000000000000000000000000000, 7704781061022067103494715312600000000000000000000000000000000000000000000000000000000000000000000000000000, 7703380275591856722032626558700000000000000000000000000000000000000000000000000000000000000000000000000000, 7702002820664047709595169982900000000000000000000000000000000000000000000000000000000000000000000000000000, 7700646313794725348854499518400000000000000000000000000000000000000000000000000000000000000000000000000000, 7699308753042479067448924661800000000000000000000000000000000000000000000000000000000000000000000000000000, 7697988437445080004324258465800000000000000000000000000000000000000000000000000000000000000000000000000000, 7696683907254001315851543568600000000000000000000000000000000000000000000000000000000000000000000000000000, 7695393898218677432461116797500000000000000000000000000000000000000000000000000000000000000000000000000000, 7694117306235233463557325908500000000000000000000000000000000000000000000000000000000000000000000000000000, 7692853159707090077178785678600000000000000000000000000000000000000000000000000000000000000000000000000000, 7691600597632984753275337479100000000000000000000000000000000000000000000000000000000000000000000000000000, 7690358852153725715052511022400000000000000000000000000000000000000000000000000000000000000000000000000000, 7689127234441081547398230303200000000000000000000000000000000000000000000000000000000000000000000000000000, 7687905123239668721970455002500000000000000000000000000000000000000000000000000000000000000000000000000000, 7686691955481020840023416756300000000000000000000000000000000000000000000000000000000000000000000000000000, 7685487218522410505916209591000000000000000000000000000000000000000000000000000000000000000000000000000000, 7684290443699759788910911032000000000000000000000000000000000000000000000000000000000000000000000000000000, 7683101200915736136589086884900000000000000000000000000000000000000000000000000000000000000000000000000000, 7681919094076423567085313348000000000000000000000000000000000000000000000000000000000000000000000000000000, 7680743757247179800775733568100000000000000000000000000000000000000000000000000000000000000000000000000000, 7679574851347522256406554159800000000000000000000000000000000000000000000000000000000000000000000000000000, 7678412061305053239870482955500000000000000000000000000000000000000000000000000000000000000000000000000000, 7677255093645341716566670362700000000000000000000000000000000000000000000000000000000000000000000000000000, 7676103674353501256574077221400000000000000000000000000000000000000000000000000000000000000000000000000000, 7674957547032718497732432740700000000000000000000000000000000000000000000000000000000000000000000000000000]
noncomputable def wA7 : List Nat := [4208016032000, 4208016032000, 4208016032000, 4208016032000, 4208016032000, 4208016032000, 4208016032000, 4208016032000, 4208016032000, 4208016032000, 4208016032000, 4208016032000, 4208016032000, 4208016032000, 4208016032000, 4208016032000, 4208016032000, 4208016032000, 4208016032000, 4208016032000, 4208016032000, 4208016032000, 4208016032000, 4208016032000, 4208016032000]
noncomputable def accA8 : List Nat := [9124594141113639019937343381800000000000000000000000000000000000000000000000000000000000000000000000000000, 9122166654427694659921475447700000000000000000000000000000000000000000000000000000000000000000000000000000, 9118728493207804205954499139500000000000000000000000000000000000000000000000000000000000000000000000000000, 9115571650679611571586300694200000000000000000000000000000000000000000000000000000000000000000000000000000, 9112785219513423125930532225800000000000000000000000000000000000000000000000000000000000000000000000000000, 9110281010459518268162574694000000000000000000000000000000000000000000000000000000000000000000000000000000, 9107978351114331823872782928000000000000000000000000000000000000000000000000000000000000000000000000000000, 9105822406564895556732063009700000000000000000000000000000000000000000000000000000000000000000000000000000, 9103777323099916854271312298800000000000000000000000000000000000000000000000000000000000000000000000000000, 9101819126157440877422048744100000000000000000000000000000000000000000000000000000000000000000000000000000, 9099931150923972845601883119500000000000000000000000000000000000000000000000000000000000000000000000000000, 9098101349036232364622361647800000000000000000000000000000000000000000000000000000000000000000000000000000, 9096320704035911493981083715900000000000000000000000000000000000000000000000000000000000000000000000000000, 9094582272114611501505673689000000000000000000000000000000000000000000000000000000000000000000000000000000, 9092880578225415381170457558500000000000000000000000000000000000000000000000000000000000000000000000000000, 9091211220358295570509115312600000000000000000000000000000000000000000000000000000000000000000000000000000, 9089570600532617381088626558700000000000000000000000000000000000000000000000000000000000000000000000000000, 9087955736021349982657569982900000000000000000000000000000000000000000000000000000000000000000000000000000, 9086364123242737938291299518400000000000000000000000000000000000000000000000000000000000000000000000000000, 9084793637550885587317724661800000000000000000000000000000000000000000000000000000000000000000000000000000, 9083242457864904832036258465800000000000000000000000000000000000000000000000000000000000000000000000000000, 9081709009269182057025943568600000000000000000000000000000000000000000000000000000000000000000000000000000, 9080191918507441994979516797500000000000000000000000000000000000000000000000000000000000000000000000000000, 9078689979179360818984525908500000000000000000000000000000000000000000000000000000000000000000000000000000, 9077202124168078477092385678600000000000000000000000000000000000000000000000000000000000000000000000000000, 9075727403565369725156937479100000000000000000000000000000000000000000000000000000000000000000000000000000, 9074264966902376054175711022400000000000000000000000000000000000000000000000000000000000000000000000000000, 9072814048636629777660630303200000000000000000000000000000000000000000000000000000000000000000000000000000, 9071373956271877548716055002500000000000000000000000000000000000000000000000000000000000000000000000000000, 9069944060546298380426616756300000000000000000000000000000000000000000000000000000000000000000000000000000, 9068523787257256741817009591000000000000000000000000000000000000000000000000000000000000000000000000000000, 9067112610418238711038911032000000000000000000000000000000000000000000000000000000000000000000000000000000, 9065710046489687327670686884900000000000000000000000000000000000000000000000000000000000000000000000000000, 9064315649482819716819713348000000000000000000000000000000000000000000000000000000000000000000000000000000, 9062929006804511836046133568100000000000000000000000000000000000000000000000000000000000000000000000000000, 9061549735689604271094554159800000000000000000000000000000000000000000000000000000000000000000000000000000, 9060177480087197605035282955500000000000000000000000000000000000000000000000000000000000000000000000000000, 9058811908042237397040270362700000000000000000000000000000000000000000000000000000000000000000000000000000, 9057452709342904111527677221400000000000000000000000000000000000000000000000000000000000000000000000000000, 9056099593504929717518032740700000000000000000000000000000000000000000000000000000000000000000000000000000]
noncomputable def wA8 : List Nat := [4208016032000, 4208016032000, 4208016033000, 4208016033000, 4208016032000, 4208016032000, 4208016032000, 4208016032000, 4208016032000, 4208016032000, 4208016032000, 4208016032000, 4208016032000, 4208016032000, 4208016032000, 4208016032000, 4208016032000, 4208016032000, 4208016032000, 4208016032000, 4208016032000, 4208016032000, 4208016032000, 4208016032000, 4208016032000]
noncomputable def accA9 : List Nat := [10503560999788085699439843381800000000000000000000000000000000000000000000000000000000000000000000000000000, 10500816259088663440868175447700000000000000000000000000000000000000000000000000000000000000000000000000000, 10497246203878715703993399139500000000000000000000000000000000000000000000000000000000000000000000000000000, 10493960192639968811312200694200000000000000000000000000000000000000000000000000000000000000000000000000000, 10491023733219998336653032225800000000000000000000000000000000000000000000000000000000000000000000000000000, 10488352476014971508470674694000000000000000000000000000000000000000000000000000000000000000000000000000000, 10485872051352388667140582928000000000000000000000000000000000000000000000000000000000000000000000000000000, 10483532419818956704866463009700000000000000000000000000000000000000000000000000000000000000000000000000000, 10481300890959927470224012298800000000000000000000000000000000000000000000000000000000000000000000000000000, 10479155467083732183849248744100000000000000000000000000000000000000000000000000000000000000000000000000000, 10477080679550038153903783119500000000000000000000000000000000000000000000000000000000000000000000000000000, 10475065180872195249357161647800000000000000000000000000000000000000000000000000000000000000000000000000000, 10473100346181872244549283715900000000000000000000000000000000000000000000000000000000000000000000000000000, 10471179431722277381908273689000000000000000000000000000000000000000000000000000000000000000000000000000000, 10469297044702266240761057558500000000000000000000000000000000000000000000000000000000000000000000000000000, 10467448793628905727475115312600000000000000000000000000000000000000000000000000000000000000000000000000000, 10465631048087015181400226558700000000000000000000000000000000000000000000000000000000000000000000000000000, 10463840768001458882138369982900000000000000000000000000000000000000000000000000000000000000000000000000000, 10462075378829444638843399518400000000000000000000000000000000000000000000000000000000000000000000000000000, 10460332678453818433697824661800000000000000000000000000000000000000000000000000000000000000000000000000000, 10458610766220529803840958465800000000000000000000000000000000000000000000000000000000000000000000000000000, 10456907988248440283733443568600000000000000000000000000000000000000000000000000000000000000000000000000000, 10455222894562409515487116797500000000000000000000000000000000000000000000000000000000000000000000000000000, 10453554205214409463393825908500000000000000000000000000000000000000000000000000000000000000000000000000000, 10451900783199587409818185678600000000000000000000000000000000000000000000000000000000000000000000000000000, 10450261612580055344749937479100000000000000000000000000000000000000000000000000000000000000000000000000000, 10448635780740869989336411022400000000000000000000000000000000000000000000000000000000000000000000000000000, 10447022463782797324134530303200000000000000000000000000000000000000000000000000000000000000000000000000000, 10445420914488122719413755002500000000000000000000000000000000000000000000000000000000000000000000000000000, 10443830452316141821273516756300000000000000000000000000000000000000000000000000000000000000000000000000000, 10442250455028032886079309591000000000000000000000000000000000000000000000000000000000000000000000000000000, 10440680351620768083948311032000000000000000000000000000000000000000000000000000000000000000000000000000000, 10439119616351335263873886884900000000000000000000000000000000000000000000000000000000000000000000000000000, 10437567763646986340351313348000000000000000000000000000000000000000000000000000000000000000000000000000000, 10436024343746454064348933568100000000000000000000000000000000000000000000000000000000000000000000000000000, 10434488938961833169740154159800000000000000000000000000000000000000000000000000000000000000000000000000000, 10432961160399500712383582955500000000000000000000000000000000000000000000000000000000000000000000000000000, 10431440645184742050902270362700000000000000000000000000000000000000000000000000000000000000000000000000000, 10429927053966909833943677221400000000000000000000000000000000000000000000000000000000000000000000000000000, 10428420068778762523383032740700000000000000000000000000000000000000000000000000000000000000000000000000000]
noncomputable def wA9 : List Nat := [4208016032000, 4208016032000, 4208016032000, 4208016032000, 4208016032000, 4208016032000, 4208016032000, 4208016032000, 4208016033000, 4208016033000, 4208016032000, 4208016032000, 4208016032000, 4208016032000, 4208016032000, 4208016032000, 4208016032000, 4208016032000, 4208016032000, 4208016032000, 4208016032000, 4208016032000, 4208016032000, 4208016032000, 4208016032000]
noncomputable def accA10 : List Nat := [11856230047188286451317243381800000000000000000000000000000000000000000000000000000000000000000000000000000, 11853202993626259122122775447700000000000000000000000000000000000000000000000000000000000000000000000000000, 11849530814651306227408299139500000000000000000000000000000000000000000000000000000000000000000000000000000, 11846144274471323071771800694200000000000000000000000000000000000000000000000000000000000000000000000000000, 11843086101196776931614632225800000000000000000000000000000000000000000000000000000000000000000000000000000, 11840275917635574292123974694000000000000000000000000000000000000000000000000000000000000000000000000000000, 11837645641877947182165082928000000000000000000000000000000000000000000000000000000000000000000000000000000, 11835149994181545919178863009700000000000000000000000000000000000000000000000000000000000000000000000000000, 11832759423763078556007612298800000000000000000000000000000000000000000000000000000000000000000000000000000, 11830453903239382172303548744100000000000000000000000000000000000000000000000000000000000000000000000000000, 11828219166967004962371883119500000000000000000000000000000000000000000000000000000000000000000000000000000, 11826044583561791467074261647800000000000000000000000000000000000000000000000000000000000000000000000000000, 11823921939243229460172983715900000000000000000000000000000000000000000000000000000000000000000000000000000, 11821844711262053998458273689000000000000000000000000000000000000000000000000000000000000000000000000000000, 11819807609770341663571157558500000000000000000000000000000000000000000000000000000000000000000000000000000, 11817806273272843249706015312600000000000000000000000000000000000000000000000000000000000000000000000000000, 11815837056752562464844826558700000000000000000000000000000000000000000000000000000000000000000000000000000, 11813896878852884710637369982900000000000000000000000000000000000000000000000000000000000000000000000000000, 11811983108405008457311199518400000000000000000000000000000000000000000000000000000000000000000000000000000, 11810093478553977843087024661800000000000000000000000000000000000000000000000000000000000000000000000000000, 11808226020356375030069858465800000000000000000000000000000000000000000000000000000000000000000000000000000, 11806379010993238907145243568600000000000000000000000000000000000000000000000000000000000000000000000000000, 11804550932678933965846516797500000000000000000000000000000000000000000000000000000000000000000000000000000, 11802740439866249444746625908500000000000000000000000000000000000000000000000000000000000000000000000000000, 11800946332775570261225085678600000000000000000000000000000000000000000000000000000000000000000000000000000, 11799167535831321992203537479100000000000000000000000000000000000000000000000000000000000000000000000000000, 11797403080038300156195511022400000000000000000000000000000000000000000000000000000000000000000000000000000, 11795652088363073098271930303200000000000000000000000000000000000000000000000000000000000000000000000000000, 11793913763605953362848255002500000000000000000000000000000000000000000000000000000000000000000000000000000, 11792187378279926535713716756300000000000000000000000000000000000000000000000000000000000000000000000000000, 11790472266066361333977109591000000000000000000000000000000000000000000000000000000000000000000000000000000, 11788767814581021069872611032000000000000000000000000000000000000000000000000000000000000000000000000000000, 11787073459220286337727586884900000000000000000000000000000000000000000000000000000000000000000000000000000, 11785388677911919592972013348000000000000000000000000000000000000000000000000000000000000000000000000000000, 11783712986582911662587433568100000000000000000000000000000000000000000000000000000000000000000000000000000, 11782045935269032711178954159800000000000000000000000000000000000000000000000000000000000000000000000000000, 11780387104687630415724682955500000000000000000000000000000000000000000000000000000000000000000000000000000, 11778736103333069854171170362700000000000000000000000000000000000000000000000000000000000000000000000000000, 11777092564844290368443377221400000000000000000000000000000000000000000000000000000000000000000000000000000, 11775456145755998075624332740700000000000000000000000000000000000000000000000000000000000000000000000000000]
noncomputable def wA10 : List Nat := [4208016032000, 4208016032000, 4208016032000, 4208016032000, 4208016032000, 4208016032000, 4208016032000, 4208016032000, 4208016032000, 4208016032000, 4208016032000, 4208016032000, 4208016032000, 4208016032000, 4208016032000, 4208016033000, 4208016033000, 4208016032000, 4208016032000, 4208016032000, 4208016032000, 4208016032000, 4208016032000, 4208016032000, 4208016032000]
noncomputable def accA11 : List Nat := [13177221569098435155491443381800000000000000000000000000000000000000000000000000000000000000000000000000000, 13173928959854602599728475447700000000000000000000000000000000000000000000000000000000000000000000000000000, 13170164800139632365283099139500000000000000000000000000000000000000000000000000000000000000000000000000000, 13166686240850100088419600694200000000000000000000000000000000000000000000000000000000000000000000000000000, 13163514255782597895840432225800000000000000000000000000000000000000000000000000000000000000000000000000000, 13160572623697806795137074694000000000000000000000000000000000000000000000000000000000000000000000000000000, 13157799555943938636474182928000000000000000000000000000000000000000000000000000000000000000000000000000000, 13155154519844475136863763009700000000000000000000000000000000000000000000000000000000000000000000000000000, 13152611107017741354531412298800000000000000000000000000000000000000000000000000000000000000000000000000000, 13150151278188046440629348744100000000000000000000000000000000000000000000000000000000000000000000000000000, 13147761997070777511954483119500000000000000000000000000000000000000000000000000000000000000000000000000000, 13145433377948532018070461647800000000000000000000000000000000000000000000000000000000000000000000000000000, 13143157647687404548124783715900000000000000000000000000000000000000000000000000000000000000000000000000000, 13140928532502453085796473689000000000000000000000000000000000000000000000000000000000000000000000000000000, 13138740871229409283445057558500000000000000000000000000000000000000000000000000000000000000000000000000000, 13136590355745395278237215312600000000000000000000000000000000000000000000000000000000000000000000000000000, 13134473347580246120941926558700000000000000000000000000000000000000000000000000000000000000000000000000000, 13132386743193107493755669982900000000000000000000000000000000000000000000000000000000000000000000000000000, 13130327872070648768622799518400000000000000000000000000000000000000000000000000000000000000000000000000000, 13128294418284872720908324661800000000000000000000000000000000000000000000000000000000000000000000000000000, 13126284358837870771079158465800000000000000000000000000000000000000000000000000000000000000000000000000000, 13124295914939018962162043568600000000000000000000000000000000000000000000000000000000000000000000000000000, 13122327512839855773493916797500000000000000000000000000000000000000000000000000000000000000000000000000000, 13120377752233416215019225908500000000000000000000000000000000000000000000000000000000000000000000000000000, 13118445380515597548639085678600000000000000000000000000000000000000000000000000000000000000000000000000000, 13116529271619682585582037479100000000000000000000000000000000000000000000000000000000000000000000000000000, 13114628408590445721962011022400000000000000000000000000000000000000000000000000000000000000000000000000000, 13112741869032884080257330303200000000000000000000000000000000000000000000000000000000000000000000000000000, 13110868812961044793921855002500000000000000000000000000000000000000000000000000000000000000000000000000000, 13109008472599105552820916756300000000000000000000000000000000000000000000000000000000000000000000000000000, 13107160143728517879549809591000000000000000000000000000000000000000000000000000000000000000000000000000000, 13105323178331144525102611032000000000000000000000000000000000000000000000000000000000000000000000000000000, 13103496978297880031591786884900000000000000000000000000000000000000000000000000000000000000000000000000000, 13101680990048966814262513348000000000000000000000000000000000000000000000000000000000000000000000000000000, 13099874699869289166931633568100000000000000000000000000000000000000000000000000000000000000000000000000000, 13098077629882846913430354159800000000000000000000000000000000000000000000000000000000000000000000000000000, 13096289334514461959106182955500000000000000000000000000000000000000000000000000000000000000000000000000000, 13094509397469918540139670362700000000000000000000000000000000000000000000000000000000000000000000000000000, 13092737428994953272926977221400000000000000000000000000000000000000000000000000000000000000000000000000000, 13090973063532188106140832740700000000000000000000000000000000000000000000000000000000000000000000000000000]
noncomputable def wA11 : List Nat := [4208016032000, 4208016032000, 4208016032000, 4208016032000, 4208016032000, 4208016032000, 4208016032000, 4208016032000, 4208016032000, 4208016032000, 4208016032000, 4208016032000, 4208016032000, 4208016032000, 4208016032000, 4208016032000, 4208016032000, 4208016032000, 4208016032000, 4208016032000, 4208016032000, 4208016033000, 4208016033000, 4208016032000, 4208016032000]
noncomputable def accA12 : List Nat := [14453072165151649345391443381800000000000000000000000000000000000000000000000000000000000000000000000000000, 14449554503290093853247575447700000000000000000000000000000000000000000000000000000000000000000000000000000, 14445727177748784307804999139500000000000000000000000000000000000000000000000000000000000000000000000000000, 14442181657958092186819800694200000000000000000000000000000000000000000000000000000000000000000000000000000, 14438919021287784028912332225800000000000000000000000000000000000000000000000000000000000000000000000000000, 14435867694147468679583474694000000000000000000000000000000000000000000000000000000000000000000000000000000, 14432972314841685589563082928000000000000000000000000000000000000000000000000000000000000000000000000000000, 14430197145947001865105663009700000000000000000000000000000000000000000000000000000000000000000000000000000, 14427518965146996324416512298800000000000000000000000000000000000000000000000000000000000000000000000000000, 14424921778424199129031148744100000000000000000000000000000000000000000000000000000000000000000000000000000, 14422393847834422331314783119500000000000000000000000000000000000000000000000000000000000000000000000000000, 14419926108256632963960361647800000000000000000000000000000000000000000000000000000000000000000000000000000, 14417511302905740849397983715900000000000000000000000000000000000000000000000000000000000000000000000000000, 14415143479943273752912773689000000000000000000000000000000000000000000000000000000000000000000000000000000, 14412817675195238638997457558500000000000000000000000000000000000000000000000000000000000000000000000000000, 14410529696680841734131115312600000000000000000000000000000000000000000000000000000000000000000000000000000, 14408275969497891476723526558700000000000000000000000000000000000000000000000000000000000000000000000000000, 14406053419392483529602369982900000000000000000000000000000000000000000000000000000000000000000000000000000, 14403859382839960291290999518400000000000000000000000000000000000000000000000000000000000000000000000000000, 14401691536482230629758024661800000000000000000000000000000000000000000000000000000000000000000000000000000, 14399547840746010815507458465800000000000000000000000000000000000000000000000000000000000000000000000000000, 14397426494632030679416043568600000000000000000000000000000000000000000000000000000000000000000000000000000, 14395325898916078841328516797500000000000000000000000000000000000000000000000000000000000000000000000000000, 14393244626137704459675025908500000000000000000000000000000000000000000000000000000000000000000000000000000, 14391181395931260628179985678600000000000000000000000000000000000000000000000000000000000000000000000000000, 14389135054553067112115637479100000000000000000000000000000000000000000000000000000000000000000000000000000, 14387104557926393377853111022400000000000000000000000000000000000000000000000000000000000000000000000000000, 14385088957379701237351330303200000000000000000000000000000000000000000000000000000000000000000000000000000, 14383087387665055178862555002500000000000000000000000000000000000000000000000000000000000000000000000000000, 14381099056855987281108116756300000000000000000000000000000000000000000000000000000000000000000000000000000, 14379123237737141451522709591000000000000000000000000000000000000000000000000000000000000000000000000000000, 14377159260450356433147211032000000000000000000000000000000000000000000000000000000000000000000000000000000, 14375206506178459072759386884900000000000000000000000000000000000000000000000000000000000000000000000000000, 14373264401735282687459313348000000000000000000000000000000000000000000000000000000000000000000000000000000, 14371332414853831290549033568100000000000000000000000000000000000000000000000000000000000000000000000000000, 14369410050107311439369554159800000000000000000000000000000000000000000000000000000000000000000000000000000, 14367496845318238586401482955500000000000000000000000000000000000000000000000000000000000000000000000000000, 14365592368488922739404770362700000000000000000000000000000000000000000000000000000000000000000000000000000, 14363696215003650294368177221400000000000000000000000000000000000000000000000000000000000000000000000000000, 14361808005233016787170032740700000000000000000000000000000000000000000000000000000000000000000000000000000]
noncomputable def wA12 : List Nat := [4208016032000, 4208016032000, 4208016032000, 4208016032000, 4208016032000, 4208016032000, 4208016032000, 4208016032000, 4208016032000, 4208016032000, 4208016032000, 4208016032000, 4208016032000, 4208016032000, 4208016032000, 4208016032000, 4208016032000, 4208016032000, 4208016032000, 4208016032000, 4208016032000, 4208016032000, 4208016032000, 4208016032000, 4208016032000]
noncomputable def accA13 : List Nat := [15655131057025326304447443381800000000000000000000000000000000000000000000000000000000000000000000000000000, 15651490485839615691397975447700000000000000000000000000000000000000000000000000000000000000000000000000000, 15647680951195075975030599139500000000000000000000000000000000000000000000000000000000000000000000000000000, 15644141360928611378912600694200000000000000000000000000000000000000000000000000000000000000000000000000000, 15640856531653469050192332225800000000000000000000000000000000000000000000000000000000000000000000000000000, 15637760805772609808341874694000000000000000000000000000000000000000000000000000000000000000000000000000000, 15634805740385284822299082928000000000000000000000000000000000000000000000000000000000000000000000000000000, 15631960628060692023467263009700000000000000000000000000000000000000000000000000000000000000000000000000000, 15629205598833729457520512298800000000000000000000000000000000000000000000000000000000000000000000000000000, 15626526859830260559063148744100000000000000000000000000000000000000000000000000000000000000000000000000000, 15623914127603893230037983119500000000000000000000000000000000000000000000000000000000000000000000000000000, 15621359311255371762840361647800000000000000000000000000000000000000000000000000000000000000000000000000000, 15618855816972531821500383715900000000000000000000000000000000000000000000000000000000000000000000000000000, 15616398151445892907802373689000000000000000000000000000000000000000000000000000000000000000000000000000000, 15613981672670115007381457558500000000000000000000000000000000000000000000000000000000000000000000000000000, 15611602418406930836201515312600000000000000000000000000000000000000000000000000000000000000000000000000000, 15609256979841175202886726558700000000000000000000000000000000000000000000000000000000000000000000000000000, 15606942404307042205285569982900000000000000000000000000000000000000000000000000000000000000000000000000000, 15604656118322159691450999518400000000000000000000000000000000000000000000000000000000000000000000000000000, 15602395865895406788846024661800000000000000000000000000000000000000000000000000000000000000000000000000000, 15600159658333463214093058465800000000000000000000000000000000000000000000000000000000000000000000000000000, 15597945733395832064011243568600000000000000000000000000000000000000000000000000000000000000000000000000000, 15595752521613604122320516797500000000000000000000000000000000000000000000000000000000000000000000000000000, 15593578618535339408823825908500000000000000000000000000000000000000000000000000000000000000000000000000000, 15591422761701340836611985678600000000000000000000000000000000000000000000000000000000000000000000000000000, 15589283811389458391184437479100000000000000000000000000000000000000000000000000000000000000000000000000000, 15587160734566058011689911022400000000000000000000000000000000000000000000000000000000000000000000000000000, 15585052591300492411757730303200000000000000000000000000000000000000000000000000000000000000000000000000000, 15582958523298151770916955002500000000000000000000000000000000000000000000000000000000000000000000000000000, 15580877744188411734938516756300000000000000000000000000000000000000000000000000000000000000000000000000000, 15578809531218938014796309591000000000000000000000000000000000000000000000000000000000000000000000000000000, 15576753218123111036843211032000000000000000000000000000000000000000000000000000000000000000000000000000000, 15574708188993600733984986884900000000000000000000000000000000000000000000000000000000000000000000000000000, 15572673872999466996432113348000000000000000000000000000000000000000000000000000000000000000000000000000000, 15570649739798039568920233568100000000000000000000000000000000000000000000000000000000000000000000000000000, 15568635295528748575900754159800000000000000000000000000000000000000000000000000000000000000000000000000000, 15566630079301762375646282955500000000000000000000000000000000000000000000000000000000000000000000000000000, 15564633660171394983916770362700000000000000000000000000000000000000000000000000000000000000000000000000000, 15562645634396358528150577221400000000000000000000000000000000000000000000000000000000000000000000000000000, 15560665623062190468062832740700000000000000000000000000000000000000000000000000000000000000000000000000000]
noncomputable def wA13 : List Nat := [4208016032000, 4208016032000, 4208016033000, 4208016033000, 4208016032000, 4208016032000, 4208016032000, 4208016032000, 4208016032000, 4208016032000, 4208016032000, 4208016032000, 4208016032000, 4208016032000, 4208016032000, 4208016032000, 4208016032000, 4208016032000, 4208016032000, 4208016032000, 4208016032000, 4208016032000, 4208016032000, 4208016032000, 4208016032000]
noncomputable def accA14 : List Nat := [16743487812702719015455103381800000000000000000000000000000000000000000000000000000000000000000000000000000, 16739918061234569429557675447700000000000000000000000000000000000000000000000000000000000000000000000000000, 16736290942119791262085759139500000000000000000000000000000000000000000000000000000000000000000000000000000, 16732912498307197988678360694200000000000000000000000000000000000000000000000000000000000000000000000000000, 16729756080557463319165992225800000000000000000000000000000000000000000000000000000000000000000000000000000, 16726763237262156012237214694000000000000000000000000000000000000000000000000000000000000000000000000000000, 16723892789232553022411142928000000000000000000000000000000000000000000000000000000000000000000000000000000, 16721119177398860252357003009700000000000000000000000000000000000000000000000000000000000000000000000000000, 16718425988072877383870492298800000000000000000000000000000000000000000000000000000000000000000000000000000, 16715801764221384428982048744100000000000000000000000000000000000000000000000000000000000000000000000000000, 16713237837546686028377783119500000000000000000000000000000000000000000000000000000000000000000000000000000, 16710727263776666197234041647800000000000000000000000000000000000000000000000000000000000000000000000000000, 16708264284453336966414463715900000000000000000000000000000000000000000000000000000000000000000000000000000, 16705844029789740909154953689000000000000000000000000000000000000000000000000000000000000000000000000000000, 16703462333737322713293677558500000000000000000000000000000000000000000000000000000000000000000000000000000, 16701115604888554638350495312600000000000000000000000000000000000000000000000000000000000000000000000000000, 16698800728813246186591466558700000000000000000000000000000000000000000000000000000000000000000000000000000, 16696514990549642201471449982900000000000000000000000000000000000000000000000000000000000000000000000000000, 16694256011541824378763699518400000000000000000000000000000000000000000000000000000000000000000000000000000, 16692021697897887665536784661800000000000000000000000000000000000000000000000000000000000000000000000000000, 16689810197457294992771378465800000000000000000000000000000000000000000000000000000000000000000000000000000, 16687619864306996651581923568600000000000000000000000000000000000000000000000000000000000000000000000000000, 16685449229137575581894096797500000000000000000000000000000000000000000000000000000000000000000000000000000, 16683296974556435967726065908500000000000000000000000000000000000000000000000000000000000000000000000000000, 16681161914443898128865885678600000000000000000000000000000000000000000000000000000000000000000000000000000, 16679042976537274503602757479100000000000000000000000000000000000000000000000000000000000000000000000000000, 16676939187851193568045351022400000000000000000000000000000000000000000000000000000000000000000000000000000, 16674849662250074588818190303200000000000000000000000000000000000000000000000000000000000000000000000000000, 16672773589927392799451215002500000000000000000000000000000000000000000000000000000000000000000000000000000, 16670710228449849961844836756300000000000000000000000000000000000000000000000000000000000000000000000000000, 16668658895074675738778129591000000000000000000000000000000000000000000000000000000000000000000000000000000, 16666618960142254825046471032000000000000000000000000000000000000000000000000000000000000000000000000000000, 16664589841368146852864326884900000000000000000000000000000000000000000000000000000000000000000000000000000, 16662570998925232233398573348000000000000000000000000000000000000000000000000000000000000000000000000000000, 16660561931158863769418893568100000000000000000000000000000000000000000000000000000000000000000000000000000, 16658562170839279765659374159800000000000000000000000000000000000000000000000000000000000000000000000000000, 16656571281868385434025422955500000000000000000000000000000000000000000000000000000000000000000000000000000, 16654588856447276096819070362700000000000000000000000000000000000000000000000000000000000000000000000000000, 16652614512495889288224397221400000000000000000000000000000000000000000000000000000000000000000000000000000, 16650647891418841161278152740700000000000000000000000000000000000000000000000000000000000000000000000000000]
noncomputable def wA14 : List Nat := [4208016032000, 4208016032000, 4208016032000, 4208016032000, 4208016032000, 4208016032000, 4208016032000, 4208016032000, 4208016033000, 4208016033000, 4208016032000, 4208016032000, 4208016032000, 4208016032000, 4208016032000, 4208016032000, 4208016032000, 4208016032000, 4208016032000, 4208016032000, 4208016032000, 4208016032000, 4208016032000, 4208016032000, 4208016032000]
noncomputable def accA15 : List Nat := [17700509127854862217614143381800000000000000000000000000000000000000000000000000000000000000000000000000000, 17697257807302110947093005447700000000000000000000000000000000000000000000000000000000000000000000000000000, 17694045450687218529511859139500000000000000000000000000000000000000000000000000000000000000000000000000000, 17691061553296646211801120694200000000000000000000000000000000000000000000000000000000000000000000000000000, 17688269834026958415359272225800000000000000000000000000000000000000000000000000000000000000000000000000000, 17685618584306294463811124694000000000000000000000000000000000000000000000000000000000000000000000000000000, 17683073261246133136646352928000000000000000000000000000000000000000000000000000000000000000000000000000000, 17680612967959674747679143009700000000000000000000000000000000000000000000000000000000000000000000000000000, 17678224404757321855243782298800000000000000000000000000000000000000000000000000000000000000000000000000000, 17675898215971446846279688744100000000000000000000000000000000000000000000000000000000000000000000000000000, 17673627189967384889820973119500000000000000000000000000000000000000000000000000000000000000000000000000000, 17671405423356798615711551647800000000000000000000000000000000000000000000000000000000000000000000000000000, 17669227923690549505903343715900000000000000000000000000000000000000000000000000000000000000000000000000000, 17667090400360382742155823689000000000000000000000000000000000000000000000000000000000000000000000000000000, 17664989135972919700352177558500000000000000000000000000000000000000000000000000000000000000000000000000000, 17662920894177455768464215312600000000000000000000000000000000000000000000000000000000000000000000000000000, 17660882846831963176048316558700000000000000000000000000000000000000000000000000000000000000000000000000000, 17658872513590348307199529982900000000000000000000000000000000000000000000000000000000000000000000000000000, 17656887710874652822964549518400000000000000000000000000000000000000000000000000000000000000000000000000000, 17654926508782512453149954661800000000000000000000000000000000000000000000000000000000000000000000000000000, 17652987194483115360236698465800000000000000000000000000000000000000000000000000000000000000000000000000000, 17651068241448487639877503568600000000000000000000000000000000000000000000000000000000000000000000000000000, 17649168283372187062501606797500000000000000000000000000000000000000000000000000000000000000000000000000000, 17647286092215093119514955908500000000000000000000000000000000000000000000000000000000000000000000000000000, 17645420559687054973107565678600000000000000000000000000000000000000000000000000000000000000000000000000000, 17643570681499487875869627479100000000000000000000000000000000000000000000000000000000000000000000000000000, 17641735544117954965870361022400000000000000000000000000000000000000000000000000000000000000000000000000000, 17639914313404361774872790303200000000000000000000000000000000000000000000000000000000000000000000000000000, 17638106224970647136192155002500000000000000000000000000000000000000000000000000000000000000000000000000000, 17636310575942356167007556756300000000000000000000000000000000000000000000000000000000000000000000000000000, 17634526717875752246084459591000000000000000000000000000000000000000000000000000000000000000000000000000000, 17632754050657383836298221032000000000000000000000000000000000000000000000000000000000000000000000000000000, 17630992017228478037333916884900000000000000000000000000000000000000000000000000000000000000000000000000000, 17629240099041431533434073348000000000000000000000000000000000000000000000000000000000000000000000000000000, 17627497812100578486611533568100000000000000000000000000000000000000000000000000000000000000000000000000000, 17625764703503315626972034159800000000000000000000000000000000000000000000000000000000000000000000000000000, 17624040348405634563733442955500000000000000000000000000000000000000000000000000000000000000000000000000000, 17622324347421170030535620362700000000000000000000000000000000000000000000000000000000000000000000000000000, 17620616324252304792537227221400000000000000000000000000000000000000000000000000000000000000000000000000000, 17618915923649995592464442740700000000000000000000000000000000000000000000000000000000000000000000000000000]
noncomputable def wA15 : List Nat := [4208016032000, 4208016032000, 4208016032000, 4208016032000, 4208016032000, 4208016032000, 4208016032000, 4208016032000, 4208016032000, 4208016032000, 4208016032000, 4208016032000, 4208016032000, 4208016032000, 4208016033000, 4208016033000, 4208016032000, 4208016032000, 4208016032000, 4208016032000, 4208016032000, 4208016032000, 4208016032000, 4208016032000, 4208016032000]
noncomputable def accA16 : List Nat := [18637633161265293709975103381800000000000000000000000000000000000000000000000000000000000000000000000000000, 18634950359296066506148235447700000000000000000000000000000000000000000000000000000000000000000000000000000, 18632474545501622136701029139500000000000000000000000000000000000000000000000000000000000000000000000000000, 18630252247257375046847250694200000000000000000000000000000000000000000000000000000000000000000000000000000, 18628218658396249880591172225800000000000000000000000000000000000000000000000000000000000000000000000000000, 18626316799716717113095704694000000000000000000000000000000000000000000000000000000000000000000000000000000, 18624511644154415981992802928000000000000000000000000000000000000000000000000000000000000000000000000000000, 18622782465156639589441083009700000000000000000000000000000000000000000000000000000000000000000000000000000, 18621115869202944040078302298800000000000000000000000000000000000000000000000000000000000000000000000000000, 18619502062642558641541708744100000000000000000000000000000000000000000000000000000000000000000000000000000, 18617933168595311555934873119500000000000000000000000000000000000000000000000000000000000000000000000000000, 18616402518481970102707941647800000000000000000000000000000000000000000000000000000000000000000000000000000, 18614904347786391854264893715900000000000000000000000000000000000000000000000000000000000000000000000000000, 18613433644350382225930773689000000000000000000000000000000000000000000000000000000000000000000000000000000, 18611986050412509720418767558500000000000000000000000000000000000000000000000000000000000000000000000000000, 18610557783485340183197385312600000000000000000000000000000000000000000000000000000000000000000000000000000, 18609145565839719824791576558700000000000000000000000000000000000000000000000000000000000000000000000000000, 18607746560306837952901619982900000000000000000000000000000000000000000000000000000000000000000000000000000, 18606358312299963854582769518400000000000000000000000000000000000000000000000000000000000000000000000000000, 18604978698388182317692434661800000000000000000000000000000000000000000000000000000000000000000000000000000, 18603605881024512251441058465800000000000000000000000000000000000000000000000000000000000000000000000000000, 18602238269360023958508953568600000000000000000000000000000000000000000000000000000000000000000000000000000, 18600874485300317802540596797500000000000000000000000000000000000000000000000000000000000000000000000000000, 18599513334385231272387655908500000000000000000000000000000000000000000000000000000000000000000000000000000, 18598153780838239865766555678600000000000000000000000000000000000000000000000000000000000000000000000000000, 18596794926108102470761807479100000000000000000000000000000000000000000000000000000000000000000000000000000, 18595435990588866387307021022400000000000000000000000000000000000000000000000000000000000000000000000000000, 18594076297848947101871840303200000000000000000000000000000000000000000000000000000000000000000000000000000, 18592715261132885479821505002500000000000000000000000000000000000000000000000000000000000000000000000000000, 18591352371768775481123136756300000000000000000000000000000000000000000000000000000000000000000000000000000, 18589987189170904234186229591000000000000000000000000000000000000000000000000000000000000000000000000000000, 18588619332210343303200901032000000000000000000000000000000000000000000000000000000000000000000000000000000, 18587248471749322377036046884900000000000000000000000000000000000000000000000000000000000000000000000000000, 18585874324202345635752423348000000000000000000000000000000000000000000000000000000000000000000000000000000, 18584496645938863162783563568100000000000000000000000000000000000000000000000000000000000000000000000000000, 18583115228410586808738684159800000000000000000000000000000000000000000000000000000000000000000000000000000, 18581729893897160734823292955500000000000000000000000000000000000000000000000000000000000000000000000000000, 18580340491853542291355720362700000000000000000000000000000000000000000000000000000000000000000000000000000, 18578946895637393401761727221400000000000000000000000000000000000000000000000000000000000000000000000000000, 18577548999691349306165912740700000000000000000000000000000000000000000000000000000000000000000000000000000]
noncomputable def wA16 : List Nat := [4208016032000, 4208016032000, 4208016032000, 4208016032000, 4208016032000, 4208016032000, 4208016032000, 4208016032000, 4208016032000, 4208016032000, 4208016032000, 4208016032000, 4208016032000, 4208016032000, 4208016032000, 4208016032000, 4208016032000, 4208016032000, 4208016032000, 4208016032000, 4208016032000, 4208016033000, 4208016033000, 4208016032000, 4208016032000]
noncomputable def accA17 : List Nat := [19781397286636500172234163381800000000000000000000000000000000000000000000000000000000000000000000000000000, 19774026976902794791932045447700000000000000000000000000000000000000000000000000000000000000000000000000000, 19766964026851124047191429139500000000000000000000000000000000000000000000000000000000000000000000000000000, 19760160265498335662372340694200000000000000000000000000000000000000000000000000000000000000000000000000000, 19753566745001191501843902225800000000000000000000000000000000000000000000000000000000000000000000000000000, 19747149991807284823005754694000000000000000000000000000000000000000000000000000000000000000000000000000000, 19740890806498979097056772928000000000000000000000000000000000000000000000000000000000000000000000000000000, 19734777819182377762659413009700000000000000000000000000000000000000000000000000000000000000000000000000000, 19728802968996692536632312298800000000000000000000000000000000000000000000000000000000000000000000000000000, 19722959365218870447034378744100000000000000000000000000000000000000000000000000000000000000000000000000000, 19717240511022819223959123119500000000000000000000000000000000000000000000000000000000000000000000000000000, 19711640116520031180223191647800000000000000000000000000000000000000000000000000000000000000000000000000000, 19706152111881508720307023715900000000000000000000000000000000000000000000000000000000000000000000000000000, 19700770701356087494236053689000000000000000000000000000000000000000000000000000000000000000000000000000000, 19695490405921538094888827558500000000000000000000000000000000000000000000000000000000000000000000000000000, 19690306084027278402070575312600000000000000000000000000000000000000000000000000000000000000000000000000000, 19685212933905527676931276558700000000000000000000000000000000000000000000000000000000000000000000000000000, 19680206483338145141771919982900000000000000000000000000000000000000000000000000000000000000000000000000000, 19675282572127668495925289518400000000000000000000000000000000000000000000000000000000000000000000000000000, 19670437331129847726984184661800000000000000000000000000000000000000000000000000000000000000000000000000000, 19665667160009752749610948465800000000000000000000000000000000000000000000000000000000000000000000000000000, 19660968705430788877497253568600000000000000000000000000000000000000000000000000000000000000000000000000000, 19656338840202145048794996797500000000000000000000000000000000000000000000000000000000000000000000000000000, 19651774643934227097095205908500000000000000000000000000000000000000000000000000000000000000000000000000000, 19647273385321006993724395678600000000000000000000000000000000000000000000000000000000000000000000000000000, 19642832505947284932251577479100000000000000000000000000000000000000000000000000000000000000000000000000000, 19638449605743098178962411022400000000000000000000000000000000000000000000000000000000000000000000000000000, 19634122429746868103178540303200000000000000000000000000000000000000000000000000000000000000000000000000000, 19629848856230399554933675002500000000000000000000000000000000000000000000000000000000000000000000000000000, 19625626885999081262845986756300000000000000000000000000000000000000000000000000000000000000000000000000000, 19621454632738783700225649591000000000000000000000000000000000000000000000000000000000000000000000000000000, 19617330314299596902096141032000000000000000000000000000000000000000000000000000000000000000000000000000000, 19613252244805825737760846884900000000000000000000000000000000000000000000000000000000000000000000000000000, 19609218827550682778751063348000000000000000000000000000000000000000000000000000000000000000000000000000000, 19605228548543175490940523568100000000000000000000000000000000000000000000000000000000000000000000000000000, 19601279970641194150777794159800000000000000000000000000000000000000000000000000000000000000000000000000000, 19597371728197543639491482955500000000000000000000000000000000000000000000000000000000000000000000000000000, 19593502522250161993197310362700000000000000000000000000000000000000000000000000000000000000000000000000000, 19589671116045472159855697221400000000000000000000000000000000000000000000000000000000000000000000000000000, 19585876330984377712994602740700000000000000000000000000000000000000000000000000000000000000000000000000000]
noncomputable def wA17 : List Nat := [4208016032000, 4208016032000, 4208016032000, 4208016032000, 4208016032000, 4208016032000, 4208016032000, 4208016032000, 4208016032000, 4208016032000, 4208016032000, 4208016032000, 4208016032000, 4208016032000, 4208016032000, 4208016032000, 4208016032000, 4208016032000, 4208016032000, 4208016032000, 4208016032000, 4208016032000, 4208016032000, 4208016032000, 4208016032000]
noncomputable def accA18 : List Nat := [19999245370657140148365171381800000000000000000000000000000000000000000000000000000000000000000000000000000, 19998787703496517222925069447700000000000000000000000000000000000000000000000000000000000000000000000000000, 19998326625984607562026853139500000000000000000000000000000000000000000000000000000000000000000000000000000, 19997860060132486407233492694200000000000000000000000000000000000000000000000000000000000000000000000000000, 19997384573122665954536254225800000000000000000000000000000000000000000000000000000000000000000000000000000, 19996897472071530235537914694000000000000000000000000000000000000000000000000000000000000000000000000000000, 19996397348590579902815140928000000000000000000000000000000000000000000000000000000000000000000000000000000, 19995883658763268952692693009700000000000000000000000000000000000000000000000000000000000000000000000000000, 19995356211712347815320760298800000000000000000000000000000000000000000000000000000000000000000000000000000, 19994814866668045684829898744100000000000000000000000000000000000000000000000000000000000000000000000000000, 19994259414986945026747091119500000000000000000000000000000000000000000000000000000000000000000000000000000, 19993689561526144307822359647800000000000000000000000000000000000000000000000000000000000000000000000000000, 19993104944626690286427983715900000000000000000000000000000000000000000000000000000000000000000000000000000, 19992505164462931834967157689000000000000000000000000000000000000000000000000000000000000000000000000000000, 19991889808344901508789179558500000000000000000000000000000000000000000000000000000000000000000000000000000, 19991258469883392183673839312600000000000000000000000000000000000000000000000000000000000000000000000000000, 19990610762555357451480780558700000000000000000000000000000000000000000000000000000000000000000000000000000, 19989946328748458541545743982900000000000000000000000000000000000000000000000000000000000000000000000000000, 19989264845492525823782025518400000000000000000000000000000000000000000000000000000000000000000000000000000, 19988566027940682597892824661800000000000000000000000000000000000000000000000000000000000000000000000000000, 19987849631048469923800164465800000000000000000000000000000000000000000000000000000000000000000000000000000, 19987115450198030016709669568600000000000000000000000000000000000000000000000000000000000000000000000000000, 19986363320849621758401332797500000000000000000000000000000000000000000000000000000000000000000000000000000, 19985593117613116323037989908500000000000000000000000000000000000000000000000000000000000000000000000000000, 19984804752897113382739307678600000000000000000000000000000000000000000000000000000000000000000000000000000, 19983998175155109690465945479100000000000000000000000000000000000000000000000000000000000000000000000000000, 19983173367025043795230251022400000000000000000000000000000000000000000000000000000000000000000000000000000, 19982330343209369186474636303200000000000000000000000000000000000000000000000000000000000000000000000000000, 19981469148333190545747627002500000000000000000000000000000000000000000000000000000000000000000000000000000, 19980589854770312802963362756300000000000000000000000000000000000000000000000000000000000000000000000000000, 19979692560462220494178833591000000000000000000000000000000000000000000000000000000000000000000000000000000, 19978777386768672869497069032000000000000000000000000000000000000000000000000000000000000000000000000000000, 19977844476358410693401358884900000000000000000000000000000000000000000000000000000000000000000000000000000, 19976893991209653781162519348000000000000000000000000000000000000000000000000000000000000000000000000000000, 19975926110683723565233131568100000000000000000000000000000000000000000000000000000000000000000000000000000, 19974941029683300330857474159800000000000000000000000000000000000000000000000000000000000000000000000000000, 19973938956896586446694842955500000000000000000000000000000000000000000000000000000000000000000000000000000, 19972920113214538793434558362700000000000000000000000000000000000000000000000000000000000000000000000000000, 19971884730163478692653105221400000000000000000000000000000000000000000000000000000000000000000000000000000, 19970833048483626658172202740700000000000000000000000000000000000000000000000000000000000000000000000000000]
noncomputable def wA18 : List Nat := [4208016032000, 4208016032000, 4208016033000, 4208016033000, 4208016032000, 4208016032000, 4208016032000, 4208016032000, 4208016032000, 4208016032000, 4208016032000, 4208016032000, 4208016032000, 4208016032000, 4208016032000, 4208016032000, 4208016032000, 4208016032000, 4208016032000, 4208016032000, 4208016032000, 4208016032000, 4208016032000, 4208016032000, 4208016032000]
noncomputable def accA19 : List Nat := [19999993827990860145206412431291793137627570528000000000000000000000000000000000000000000000000000000000000, 19999987429233234407730990584547534781440000000000000000000000000000000000000000000000000000000000000000000, 19999982925648705849039763727524891200000000000000000000000000000000000000000000000000000000000000000000000, 19999980276150153750539813510369504000000000000000000000000000000000000000000000000000000000000000000000000, 19999978963071021487584933811520320000000000000000000000000000000000000000000000000000000000000000000000000, 19999978528025240443336247987715200000000000000000000000000000000000000000000000000000000000000000000000000, 19999978643752221783564362234784000000000000000000000000000000000000000000000000000000000000000000000000000, 19999979090843750465206789524900000000000000000000000000000000000000000000000000000000000000000000000000000, 19999979723461124782721572485040000000000000000000000000000000000000000000000000000000000000000000000000000, 19999980441460246097983777193700000000000000000000000000000000000000000000000000000000000000000000000000000, 19999981170635105763329280073100000000000000000000000000000000000000000000000000000000000000000000000000000, 19999981849516637557487923652600000000000000000000000000000000000000000000000000000000000000000000000000000, 19999982420977359948357196307900000000000000000000000000000000000000000000000000000000000000000000000000000, 19999982827141244000013327225000000000000000000000000000000000000000000000000000000000000000000000000000000, 19999983006689314924738485294500000000000000000000000000000000000000000000000000000000000000000000000000000, 19999982893601086994618593568600000000000000000000000000000000000000000000000000000000000000000000000000000, 19999982416963933184972625150700000000000000000000000000000000000000000000000000000000000000000000000000000, 19999981501325531707541027758900000000000000000000000000000000000000000000000000000000000000000000000000000, 19999980067333342853938948614400000000000000000000000000000000000000000000000000000000000000000000000000000, 19999978032604383431290407421800000000000000000000000000000000000000000000000000000000000000000000000000000, 19999975312479428036630610945800000000000000000000000000000000000000000000000000000000000000000000000000000, 19999971820862776557778996648600000000000000000000000000000000000000000000000000000000000000000000000000000, 19999967470858952763438576277500000000000000000000000000000000000000000000000000000000000000000000000000000, 19999962175345455482601445148500000000000000000000000000000000000000000000000000000000000000000000000000000, 19999955847463827660332895878600000000000000000000000000000000000000000000000000000000000000000000000000000, 19999948400925086050757056599100000000000000000000000000000000000000000000000000000000000000000000000000000, 19999939750337195296072642422400000000000000000000000000000000000000000000000000000000000000000000000000000, 19999929811337204849134060423200000000000000000000000000000000000000000000000000000000000000000000000000000, 19999918500717828200746656242500000000000000000000000000000000000000000000000000000000000000000000000000000, 19999905736502621169936684556300000000000000000000000000000000000000000000000000000000000000000000000000000, 19999891437968807319830661271000000000000000000000000000000000000000000000000000000000000000000000000000000, 19999875525636516251861561952000000000000000000000000000000000000000000000000000000000000000000000000000000, 19999857921219209642732359084900000000000000000000000000000000000000000000000000000000000000000000000000000, 19999838547595116621904364548000000000000000000000000000000000000000000000000000000000000000000000000000000, 19999817328756493640928371368100000000000000000000000000000000000000000000000000000000000000000000000000000, 19999794189744474559904743559800000000000000000000000000000000000000000000000000000000000000000000000000000, 19999769056569055812053798355500000000000000000000000000000000000000000000000000000000000000000000000000000, 19999741856201374925997332762700000000000000000000000000000000000000000000000000000000000000000000000000000, 19999712516481838132275565421400000000000000000000000000000000000000000000000000000000000000000000000000000, 19999680966076722294676136940700000000000000000000000000000000000000000000000000000000000000000000000000000]
noncomputable def wA19 : List Nat := [4208016031000, 4208016035000, 4208016030000, 4208016030000, 4208016040000, 4208016030000, 4208016030000, 4208016030000, 4208016030000, 4208016040000, 4208016030000, 4208016030000, 4208016030000, 4208016030000, 4208016040000, 4208016030000, 4208016030000, 4208016030000, 4208016030000, 4208016040000, 4208016030000, 4208016030000, 4208016030000, 4208016030000, 2104008020000]
noncomputable def accA20 : List Nat := [19999993827990860145206412503031948122754760123825025994186619570961011316266828069510412691140904900000000, 19999987429233234408367461120435071135139804661328845764229834205289142276680000000000000000000000000000000, 19999982925648708200495615435055289573194252320636432183452031220000000000000000000000000000000000000000000, 19999980276150521129235418862374679460619374518438887920000000000000000000000000000000000000000000000000000, 19999978963082601617275193485069106797672370807755800000000000000000000000000000000000000000000000000000000, 19999978528169586754191386017241250049149558461600000000000000000000000000000000000000000000000000000000000, 19999978644749999062848497330911100025348764200000000000000000000000000000000000000000000000000000000000000, 19999979095467918316317053424335506753123980000000000000000000000000000000000000000000000000000000000000000, 19999979739589963141304947591366822719821000000000000000000000000000000000000000000000000000000000000000000, 19999980487084049163316236714711735488480000000000000000000000000000000000000000000000000000000000000000000, 19999981280724647025718937594740192071800000000000000000000000000000000000000000000000000000000000000000000, 19999982084290932190310981290058923138000000000000000000000000000000000000000000000000000000000000000000000, 19999982874927820022316110306575473580000000000000000000000000000000000000000000000000000000000000000000000, 19999983638167123036475971205972825100000000000000000000000000000000000000000000000000000000000000000000000, 19999984364808752023068993438320322000000000000000000000000000000000000000000000000000000000000000000000000, 19999985048856490673390447055589300000000000000000000000000000000000000000000000000000000000000000000000000, 19999985686294356255801990096076940000000000000000000000000000000000000000000000000000000000000000000000000, 19999986274308412914420162200458180000000000000000000000000000000000000000000000000000000000000000000000000, 19999986810795465825974427899287000000000000000000000000000000000000000000000000000000000000000000000000000, 19999987294168028233729322869753900000000000000000000000000000000000000000000000000000000000000000000000000, 19999987723149468899047978787144600000000000000000000000000000000000000000000000000000000000000000000000000, 19999988096780081755416322472759000000000000000000000000000000000000000000000000000000000000000000000000000, 19999988414350691515333047052188000000000000000000000000000000000000000000000000000000000000000000000000000, 19999988675398658653589093710286000000000000000000000000000000000000000000000000000000000000000000000000000, 19999988879738520505799590526190000000000000000000000000000000000000000000000000000000000000000000000000000, 19999989027410224380397226848460000000000000000000000000000000000000000000000000000000000000000000000000000, 19999989118738371292131054609960000000000000000000000000000000000000000000000000000000000000000000000000000, 19999989154270875059109970157070000000000000000000000000000000000000000000000000000000000000000000000000000, 19999989134773409112801873041240000000000000000000000000000000000000000000000000000000000000000000000000000, 19999989061221624503890056023500000000000000000000000000000000000000000000000000000000000000000000000000000, 19999988934779434321001755535700000000000000000000000000000000000000000000000000000000000000000000000000000, 19999988756772851935842549348600000000000000000000000000000000000000000000000000000000000000000000000000000, 19999988528646298577789798669000000000000000000000000000000000000000000000000000000000000000000000000000000, 19999988251954663738211772652500000000000000000000000000000000000000000000000000000000000000000000000000000, 19999987928342587370301218784100000000000000000000000000000000000000000000000000000000000000000000000000000, 19999987559514433256254620152800000000000000000000000000000000000000000000000000000000000000000000000000000, 19999987147191116048493998105300000000000000000000000000000000000000000000000000000000000000000000000000000, 19999986693138337988409395481700000000000000000000000000000000000000000000000000000000000000000000000000000, 19999986199107848347017840694400000000000000000000000000000000000000000000000000000000000000000000000000000, 19999985666822953652923814921700000000000000000000000000000000000000000000000000000000000000000000000000000]
noncomputable def wA : List Nat :=
  wA0 ++ wA1 ++ wA2 ++ wA3 ++ wA4 ++ wA5 ++ wA6 ++ wA7 ++ wA8 ++ wA9 ++ wA10 ++ wA11 ++ wA12 ++ wA13 ++ wA14 ++ wA15 ++ wA16 ++ wA17 ++ wA18 ++ wA19
noncomputable def accM0 : List Nat := [0, 0, 0, 0, 0, 0, 0, 0, 0, 0, 0, 0, 0, 0, 0, 0, 0, 0, 0, 0, 0, 0, 0, 0, 0, 0, 0, 0, 0, 0, 0, 0, 0, 0, 0, 0, 0, 0, 0, 0]
noncomputable def wM0 : List Nat := [5058052136327496736960900, 27823503198728980421765400, 54384601588011281484813300, 80945699977227462307380300, 107506798367378406657003000, 134067896755828144593797100, 160628995142246034835200000, 187190093535468790808070000, 213751191924874332352080000, 240312290308569052252800000, 266873388703685415440100000, 293434487093090956984110000, 319995585474892069670400000, 346556683863245607206400000, 373117782260886780012930000, 399678880650292321556940000, 426239979029568624624000000, 452801077429103404644960000, 479362175818508946188970000, 505923274195891642041600000, 532484372597320029276990000, 559045470986725570821000000, 585606569362214659459200000, 612167667765536653909020000, 638728766154942195453030000]
noncomputable def accM1 : List Nat := [40367370020547550519835375908394336246254000000000000000000000000000000000000000000000000000000000000000000000000000000, 40628395507569855699806787338765527713031000000000000000000000000000000000000000000000000000000000000000000000000000000, 40648820775607830570234609308194500192585000000000000000000000000000000000000000000000000000000000000000000000000000000, 40626474653073943839963230402796064360026000000000000000000000000000000000000000000000000000000000000000000000000000000, 40601449133894859751885323761025437471974000000000000000000000000000000000000000000000000000000000000000000000000000000, 40579828287062169227422948001256789277620000000000000000000000000000000000000000000000000000000000000000000000000000000, 40561500900236209379355141284482348203840000000000000000000000000000000000000000000000000000000000000000000000000000000, 40545579934324347534861557302171500974691000000000000000000000000000000000000000000000000000000000000000000000000000000, 40531334291527116203135242069266632149364000000000000000000000000000000000000000000000000000000000000000000000000000000, 40518263296207153243447903193049769908723000000000000000000000000000000000000000000000000000000000000000000000000000000, 40506036810592040202222482998114350058385000000000000000000000000000000000000000000000000000000000000000000000000000000, 40494436316964869082165551557321181638634000000000000000000000000000000000000000000000000000000000000000000000000000000, 40483314421853496399943300486255930746677000000000000000000000000000000000000000000000000000000000000000000000000000000, 40472569244141864003935213965491150985470000000000000000000000000000000000000000000000000000000000000000000000000000000, 40462128504440540033983958202943986481555000000000000000000000000000000000000000000000000000000000000000000000000000000, 40451939586988436774226046369621559232978000000000000000000000000000000000000000000000000000000000000000000000000000000, 40441963236974267670525025807733103664361000000000000000000000000000000000000000000000000000000000000000000000000000000, 40432169485889148016283316618995779601487000000000000000000000000000000000000000000000000000000000000000000000000000000, 40422534962434963878351740608406868154752000000000000000000000000000000000000000000000000000000000000000000000000000000, 40413041080460405603039192525543030940254000000000000000000000000000000000000000000000000000000000000000000000000000000, 40403672793232002124081110790642711679174000000000000000000000000000000000000000000000000000000000000000000000000000000, 40394417720191561384849830500385790875058000000000000000000000000000000000000000000000000000000000000000000000000000000, 40385265523704929648502697350048394544325000000000000000000000000000000000000000000000000000000000000000000000000000000, 40376207456557005707367310577611223338855000000000000000000000000000000000000000000000000000000000000000000000000000000, 40367236028045367775271739017354620418758000000000000000000000000000000000000000000000000000000000000000000000000000000, 40358344753842189235503259092527854049973000000000000000000000000000000000000000000000000000000000000000000000000000000, 40349527966126959594414185806550572291072000000000000000000000000000000000000000000000000000000000000000000000000000000, 40340780667273198792428766440015364401096000000000000000000000000000000000000000000000000000000000000000000000000000000, 40332098415946578662190337142349757407275000000000000000000000000000000000000000000000000000000000000000000000000000000, 40323477237273190221998533271687888223889000000000000000000000000000000000000000000000000000000000000000000000000000000, 40314913551216014575284236554732499961730000000000000000000000000000000000000000000000000000000000000000000000000000000, 40306404114955223432809764837919941993760000000000000000000000000000000000000000000000000000000000000000000000000000000, 40297945975951072855559371862416368490947000000000000000000000000000000000000000000000000000000000000000000000000000000, 40289536433436085302753770699051733734440000000000000000000000000000000000000000000000000000000000000000000000000000000, 40281173006598604229972338016690586283443000000000000000000000000000000000000000000000000000000000000000000000000000000, 40272853408037741607553780426526108037994000000000000000000000000000000000000000000000000000000000000000000000000000000, 40264575521330681562305124798958698277065000000000000000000000000000000000000000000000000000000000000000000000000000000, 40256337382086101907713466374789204014481000000000000000000000000000000000000000000000000000000000000000000000000000000, 40248137161892697689434720315887632159842000000000000000000000000000000000000000000000000000000000000000000000000000000, 40239973154340173130084739080901441021421000000000000000000000000000000000000000000000000000000000000000000000000000000]
noncomputable def wM1 : List Nat := [665289864528537676876800000, 691850962933753278541050000, 718412061323158820085060000, 744973159694860694294400000, 771534258101969903173080000, 798095356491375444717090000, 824656454861183711712000000, 851217553270186527805110000, 877778651659592069349120000, 904339750027506729129600000, 930900848438403152437140000, 957461946827808693981150000, 984023045193829746547200000, 1010584143606619777069170000, 1037145241996025318613180000, 1063706340360152763964800000, 1090267438748506301500800000, 1116828537163821141642000000, 1143389635553226683186010000, 1169950733914829318918400000, 1196511832332037766274030000, 1223072930721443307818040000, 1249634029231738909482500000, 1276195127625352467058750000, 1302756225864171435456000000]
noncomputable def accM2 : List Nat := [242084966443823249789212655558686203846254000000000000000000000000000000000000000000000000000000000000000000000000000000, 242275892831560139735336962301773894313031000000000000000000000000000000000000000000000000000000000000000000000000000000, 242254997354258522524926950709738540792585000000000000000000000000000000000000000000000000000000000000000000000000000000, 242193689512991788546439707550150458860026000000000000000000000000000000000000000000000000000000000000000000000000000000, 242128081350105402749784181558230329071974000000000000000000000000000000000000000000000000000000000000000000000000000000, 242064440881716675933275777945932718577620000000000000000000000000000000000000000000000000000000000000000000000000000000, 242003365825060802821666112384209378503840000000000000000000000000000000000000000000000000000000000000000000000000000000, 241944546802594638305064425512515350074691000000000000000000000000000000000000000000000000000000000000000000000000000000, 241887632589877760613038328235799430049364000000000000000000000000000000000000000000000000000000000000000000000000000000, 241832347738293180411425945078425588808723000000000000000000000000000000000000000000000000000000000000000000000000000000, 241778483224589702856196775370304181858385000000000000000000000000000000000000000000000000000000000000000000000000000000, 241725875956947168234287019941978732338634000000000000000000000000000000000000000000000000000000000000000000000000000000, 241674394149786481547217987453060689146677000000000000000000000000000000000000000000000000000000000000000000000000000000, 241623928235319092988850593575660148785470000000000000000000000000000000000000000000000000000000000000000000000000000000, 241574385217529812852291092828514281381555000000000000000000000000000000000000000000000000000000000000000000000000000000, 241525684998207574627462688083237008132978000000000000000000000000000000000000000000000000000000000000000000000000000000, 241477757840959197424176168427527688164361000000000000000000000000000000000000000000000000000000000000000000000000000000, 241430542523265380486623819484216856401487000000000000000000000000000000000000000000000000000000000000000000000000000000, 241383984930899937221054835672793316754752000000000000000000000000000000000000000000000000000000000000000000000000000000, 241338036954329906670667472153468151840254000000000000000000000000000000000000000000000000000000000000000000000000000000, 241292655603238490664269738892202931879174000000000000000000000000000000000000000000000000000000000000000000000000000000, 241247802284023539322546577422368141275058000000000000000000000000000000000000000000000000000000000000000000000000000000, 241203442203732583647546122558485442344325000000000000000000000000000000000000000000000000000000000000000000000000000000, 241159543873056853964840540801036062938855000000000000000000000000000000000000000000000000000000000000000000000000000000, 241116078689053444462690798011506944218758000000000000000000000000000000000000000000000000000000000000000000000000000000, 241073020582279540443551201915229261049973000000000000000000000000000000000000000000000000000000000000000000000000000000, 241030345716832215783356330268136548191072000000000000000000000000000000000000000000000000000000000000000000000000000000, 240988032233482288540399284370641876401096000000000000000000000000000000000000000000000000000000000000000000000000000000, 240946060029388060255024745706184032107275000000000000000000000000000000000000000000000000000000000000000000000000000000, 240904410567486147430970505033775848623889000000000000000000000000000000000000000000000000000000000000000000000000000000, 240863066711857380676327790102058287161730000000000000000000000000000000000000000000000000000000000000000000000000000000, 240822012583956945506913716781715763893760000000000000000000000000000000000000000000000000000000000000000000000000000000, 240781233437398618021563457458620324390947000000000000000000000000000000000000000000000000000000000000000000000000000000, 240740715547893543309543441224250916334440000000000000000000000000000000000000000000000000000000000000000000000000000000, 240700446116859778532586381848707695083443000000000000000000000000000000000000000000000000000000000000000000000000000000, 240660413186273492215419552809887096337994000000000000000000000000000000000000000000000000000000000000000000000000000000, 240620605562966417914523186454602791077065000000000000000000000000000000000000000000000000000000000000000000000000000000, 240581012752087530111366028897018841714481000000000000000000000000000000000000000000000000000000000000000000000000000000, 240541624897356047406098959345862055659842000000000000000000000000000000000000000000000000000000000000000000000000000000, 240502432728031202530904270162781661021421000000000000000000000000000000000000000000000000000000000000000000000000000000]
noncomputable def wM2 : List Nat := [1329317324252524972992000000, 1355878422640878510528000000, 1382439521029232048064000000, 1409000619417585585600000000, 1435561717805939123136000000, 1462122816194292660672000000, 1488683914582646198208000000, 1515245012970999735744000000, 1541806111359353273280000000, 1568367209747706810816000000, 1594928308136060348352000000, 1621489406524413885888000000, 1648050504912767423424000000, 1674611603301120960960000000, 1701172701689474498496000000, 1727733800077828036032000000, 1754294898466181573568000000, 1780855996854535111104000000, 1807417095242888648640000000, 1833978193631242186176000000, 1860539292019595723712000000, 1887100390407949261248000000, 1913661488796302798784000000, 1940222587184656336320000000, 1966783685573009873856000000]
noncomputable def accM3 : List Nat := [694148388495605405200364868889411323846254000000000000000000000000000000000000000000000000000000000000000000000000000000, 694160408418353168354184270940072774313031000000000000000000000000000000000000000000000000000000000000000000000000000000, 694028754851998370062916940793146540792585000000000000000000000000000000000000000000000000000000000000000000000000000000, 693862671730943914891827622439852218860026000000000000000000000000000000000000000000000000000000000000000000000000000000, 693688984861266288584881539659597369071974000000000000000000000000000000000000000000000000000000000000000000000000000000, 693514279218861390309723216155116718577620000000000000000000000000000000000000000000000000000000000000000000000000000000, 693340697006343186061990562507131618503840000000000000000000000000000000000000000000000000000000000000000000000000000000, 693169197148295983624103759842770710074691000000000000000000000000000000000000000000000000000000000000000000000000000000, 693000261144477873274648832617530630049364000000000000000000000000000000000000000000000000000000000000000000000000000000, 692834103237800317297765117611203188808723000000000000000000000000000000000000000000000000000000000000000000000000000000, 692670772728635608132392804167221301858385000000000000000000000000000000000000000000000000000000000000000000000000000000, 692510218991043424961431313525143532338634000000000000000000000000000000000000000000000000000000000000000000000000000000, 692352334571217726072229415034399569146677000000000000000000000000000000000000000000000000000000000000000000000000000000, 692196983005268375454046181275958388785470000000000000000000000000000000000000000000000000000000000000000000000000000000, 692044016097799957081951174045424361381555000000000000000000000000000000000000000000000000000000000000000000000000000000, 691893284216622309758761299422404368132978000000000000000000000000000000000000000000000000000000000000000000000000000000, 691744642142327031587510953616837128164361000000000000000000000000000000000000000000000000000000000000000000000000000000, 691597952154685290500033190520309656401487000000000000000000000000000000000000000000000000000000000000000000000000000000, 691453085441191543674918941525241956754752000000000000000000000000000000000000000000000000000000000000000000000000000000, 691309922528999310044585054903733111840254000000000000000000000000000000000000000000000000000000000000000000000000000000, 691168353147147176049645525264206771879174000000000000000000000000000000000000000000000000000000000000000000000000000000, 691028275790917132308751804813943181275058000000000000000000000000000000000000000000000000000000000000000000000000000000, 690889597133189690898492721264065602344325000000000000000000000000000000000000000000000000000000000000000000000000000000, 690752231380138398600594812452500382938855000000000000000000000000000000000000000000000000000000000000000000000000000000, 690616099626070604512746411208223104218758000000000000000000000000000000000000000000000000000000000000000000000000000000, 690481129227194891751215078457395661049973000000000000000000000000000000000000000000000000000000000000000000000000000000, 690347253220343836664907925498485348191072000000000000000000000000000000000000000000000000000000000000000000000000000000, 690214409790275495054027427513282516401096000000000000000000000000000000000000000000000000000000000000000000000000000000, 690082541776781965216169472188209632107275000000000000000000000000000000000000000000000000000000000000000000000000000000, 689951596239646830729355380738147048623889000000000000000000000000000000000000000000000000000000000000000000000000000000, 689821524060492455842702450424154287161730000000000000000000000000000000000000000000000000000000000000000000000000000000, 689692279589605576649657570295617843893760000000000000000000000000000000000000000000000000000000000000000000000000000000, 689563820326408335630424686238798244390947000000000000000000000000000000000000000000000000000000000000000000000000000000, 689436106636364479098792872703122596334440000000000000000000000000000000000000000000000000000000000000000000000000000000, 689309101498294909374741698027253615083443000000000000000000000000000000000000000000000000000000000000000000000000000000, 689182770274881842902899543597533176337994000000000000000000000000000000000000000000000000000000000000000000000000000000, 689057080509619148760432214802983591077065000000000000000000000000000000000000000000000000000000000000000000000000000000, 688932001744759013683375373938808921714481000000000000000000000000000000000000000000000000000000000000000000000000000000, 688807505356470420336248893688570535659842000000000000000000000000000000000000000000000000000000000000000000000000000000, 688683564408348490777785384319610461021421000000000000000000000000000000000000000000000000000000000000000000000000000000]
noncomputable def wM3 : List Nat := [1993344783961363411392000000, 2019905882349716948928000000, 2046466981228604354199000000, 2073028079627477931816000000, 2099589177527401609632000000, 2126150275915755147168000000, 2152711374304108684704000000, 2179272472692462222240000000, 2205833571080815759776000000, 2232394669469169297312000000, 2258955767857522834848000000, 2285516866245876372384000000, 2312077964634229909920000000, 2338639063022583447456000000, 2365200161410936984992000000, 2391761259799290522528000000, 2418322358187644060064000000, 2444883456575997597600000000, 2471444554964351135136000000, 2498005653352704672672000000, 2524566751741058210208000000, 2551127850129411747744000000, 2577688948517765285280000000, 2604250046906118822816000000, 2630811145294472360352000000]
noncomputable def accM4 : List Nat := [1432540796645655297982331464127419623846254000000000000000000000000000000000000000000000000000000000000000000000000000000, 1432259496582432822017262769021070074313031000000000000000000000000000000000000000000000000000000000000000000000000000000, 1431937715237567868777883464059187840792585000000000000000000000000000000000000000000000000000000000000000000000000000000, 1431585738364971868185668986331114818860026000000000000000000000000000000000000000000000000000000000000000000000000000000, 1431216962484357718720192853448195269071974000000000000000000000000000000000000000000000000000000000000000000000000000000, 1430839541831337569517815806683636818577620000000000000000000000000000000000000000000000000000000000000000000000000000000, 1430458731605915112767774963087275018503840000000000000000000000000000000000000000000000000000000000000000000000000000000, 1430077915177580116627690910095553210074691000000000000000000000000000000000000000000000000000000000000000000000000000000, 1429699178088513619906646199074101530049364000000000000000000000000000000000000000000000000000000000000000000000000000000, 1429323726682035267894594127354977688808723000000000000000000000000000000000000000000000000000000000000000000000000000000, 1428952195318079462544619916831421701858385000000000000000000000000000000000000000000000000000000000000000000000000000000, 1428584859589242282291119275442990132338634000000000000000000000000000000000000000000000000000000000000000000000000000000, 1428221777325957431517726544619072669146677000000000000000000000000000000000000000000000000000000000000000000000000000000, 1427862878781553549791710757152864688785470000000000000000000000000000000000000000000000000000000000000000000000000000000, 1427508023019627713564293158668824461381555000000000000000000000000000000000000000000000000000000000000000000000000000000, 1427157032577363792413908887869021868132978000000000000000000000000000000000000000000000000000000000000000000000000000000, 1426809714449769769206448816133940328164361000000000000000000000000000000000000000000000000000000000000000000000000000000, 1426465872563992966430220435228717456401487000000000000000000000000000000000000000000000000000000000000000000000000000000, 1426125314975175582295260734859213056754752000000000000000000000000000000000000000000000000000000000000000000000000000000, 1425787857854348083199396468146272711840254000000000000000000000000000000000000000000000000000000000000000000000000000000, 1425453327477988702025841819391404671879174000000000000000000000000000000000000000000000000000000000000000000000000000000, 1425121561036042730235576525343442481275058000000000000000000000000000000000000000000000000000000000000000000000000000000, 1424792406726070211596150291375583702344325000000000000000000000000000000000000000000000000000000000000000000000000000000, 1424465723429306077555875500034799282938855000000000000000000000000000000000000000000000000000000000000000000000000000000, 1424141380177449021317544780744574804218758000000000000000000000000000000000000000000000000000000000000000000000000000000, 1423819255488083237469903542029405461049973000000000000000000000000000000000000000000000000000000000000000000000000000000, 1423499236674860141625301520303585748191072000000000000000000000000000000000000000000000000000000000000000000000000000000, 1423181219158038708420391325956675716401096000000000000000000000000000000000000000000000000000000000000000000000000000000, 1422865105786512332376824739837632232107275000000000000000000000000000000000000000000000000000000000000000000000000000000, 1422550806218416261109551235105058348623889000000000000000000000000000000000000000000000000000000000000000000000000000000, 1422238236337177175040656194859805587161730000000000000000000000000000000000000000000000000000000000000000000000000000000, 1421927317710386831576432301208033643893760000000000000000000000000000000000000000000000000000000000000000000000000000000, 1421617977106749495783945953770628444390947000000000000000000000000000000000000000000000000000000000000000000000000000000, 1421310146045768622781935795935381596334440000000000000000000000000000000000000000000000000000000000000000000000000000000, 1421003760402168028425341159379168015083443000000000000000000000000000000000000000000000000000000000000000000000000000000, 1420698760035042967085516873210808676337994000000000000000000000000000000000000000000000000000000000000000000000000000000, 1420395088463097655654115564941173091077065000000000000000000000000000000000000000000000000000000000000000000000000000000, 1420092692566818433086028604111216621714481000000000000000000000000000000000000000000000000000000000000000000000000000000, 1419791522317264512968453263152119535659842000000000000000000000000000000000000000000000000000000000000000000000000000000, 1419491530533813160364632531692047761021421000000000000000000000000000000000000000000000000000000000000000000000000000000]
noncomputable def wM4 : List Nat := [2657372243682825897888000000, 2683933342071179435424000000, 2710494440459532972960000000, 2737055538847886510496000000, 2763616637236240048032000000, 2790177735624593585568000000, 2816738834012947123104000000, 2843299932401300660640000000, 2869861030789654198176000000, 2896422129870526372986000000, 2922983228269399950603000000, 2949544325967338858880000000, 2976105424355692396416000000, 3002666522744045933952000000, 3029227621132399471488000000, 3055788719520753009024000000, 3082349817909106546560000000, 3108910916297460084096000000, 3135472014685813621632000000, 3162033113074167159168000000, 3188594211462520696704000000, 3215155309850874234240000000, 3241716408239227771776000000, 3268277506627581309312000000, 3294838605015934846848000000]
noncomputable def accM5 : List Nat := [2355072720556519783101898079477696523846254000000000000000000000000000000000000000000000000000000000000000000000000000000, 2354643475999505082273510359381360674313031000000000000000000000000000000000000000000000000000000000000000000000000000000, 2354297914545310242989136994499594640792585000000000000000000000000000000000000000000000000000000000000000000000000000000, 2353923949814783470429394404702637218860026000000000000000000000000000000000000000000000000000000000000000000000000000000, 2353519074570861962228828132080303169071974000000000000000000000000000000000000000000000000000000000000000000000000000000, 2353093941347925012028916458125721118577620000000000000000000000000000000000000000000000000000000000000000000000000000000, 2352657990139922124093450482046491818503840000000000000000000000000000000000000000000000000000000000000000000000000000000, 2352217802877896429683692813107462510074691000000000000000000000000000000000000000000000000000000000000000000000000000000, 2351777582239837787876164966180468830049364000000000000000000000000000000000000000000000000000000000000000000000000000000, 2351339861984764093582135249494359788808723000000000000000000000000000000000000000000000000000000000000000000000000000000, 2350906082331241787861033713075611101858385000000000000000000000000000000000000000000000000000000000000000000000000000000, 2350476992750826557998499249771586932338634000000000000000000000000000000000000000000000000000000000000000000000000000000, 2350052916988415527081090780185116369146677000000000000000000000000000000000000000000000000000000000000000000000000000000, 2349633922032166143128455785733686588785470000000000000000000000000000000000000000000000000000000000000000000000000000000, 2349219923984941554744544812702491361381555000000000000000000000000000000000000000000000000000000000000000000000000000000, 2348810753738584328707255682243956368132978000000000000000000000000000000000000000000000000000000000000000000000000000000, 2348406197398211979684193956892467928164361000000000000000000000000000000000000000000000000000000000000000000000000000000, 2348006020982091707090379365435110656401487000000000000000000000000000000000000000000000000000000000000000000000000000000, 2347609985286028909165558494676627556754752000000000000000000000000000000000000000000000000000000000000000000000000000000, 2347217854724443864541374545173920311840254000000000000000000000000000000000000000000000000000000000000000000000000000000, 2346829402323279201981766855981375271879174000000000000000000000000000000000000000000000000000000000000000000000000000000, 2346444412402420844735502120478752681275058000000000000000000000000000000000000000000000000000000000000000000000000000000, 2346062681788602554905229555542992902344325000000000000000000000000000000000000000000000000000000000000000000000000000000, 2345684020135703085373714142231714182938855000000000000000000000000000000000000000000000000000000000000000000000000000000, 2345308249736952366810876314505517204218758000000000000000000000000000000000000000000000000000000000000000000000000000000, 2344935204994585968845240206756435461049973000000000000000000000000000000000000000000000000000000000000000000000000000000, 2344564731760199439671531457491846748191072000000000000000000000000000000000000000000000000000000000000000000000000000000, 2344196686574498817724510055549257416401096000000000000000000000000000000000000000000000000000000000000000000000000000000, 2343830935898975306188760452115231232107275000000000000000000000000000000000000000000000000000000000000000000000000000000, 2343467355354832757641366420136171448623889000000000000000000000000000000000000000000000000000000000000000000000000000000, 2343105829003360234617021157508572487161730000000000000000000000000000000000000000000000000000000000000000000000000000000, 2342746248661440721658341850264513243893760000000000000000000000000000000000000000000000000000000000000000000000000000000, 2342388513270037185345854138768233844390947000000000000000000000000000000000000000000000000000000000000000000000000000000, 2342032528307694036878144264714537596334440000000000000000000000000000000000000000000000000000000000000000000000000000000, 2341678205267156770460310817229275815083443000000000000000000000000000000000000000000000000000000000000000000000000000000, 2341325461157725644548135255505771676337994000000000000000000000000000000000000000000000000000000000000000000000000000000, 2340974218068818168673677565067391491077065000000000000000000000000000000000000000000000000000000000000000000000000000000, 2340624402762686087449314143485132421714481000000000000000000000000000000000000000000000000000000000000000000000000000000, 2340275946312607943553417804207187635659842000000000000000000000000000000000000000000000000000000000000000000000000000000, 2339928783767703495590429159772539161021421000000000000000000000000000000000000000000000000000000000000000000000000000000]
noncomputable def wM5 : List Nat := [3321399703404288384384000000, 3347960801792641921920000000, 3374521900180995459456000000, 3401082998569348996992000000, 3427644096957702534528000000, 3454205195346056072064000000, 3480766293734409609600000000, 3507327392122763147136000000, 3533888490511116684672000000, 3560449588899470222208000000, 3587010687287823759744000000, 3613571785676177297280000000, 3640132884064530834816000000, 3666693982452884372352000000, 3693255080841237909888000000, 3719816180117782830189000000, 3746377278516656407806000000, 3772938376018922570592000000, 3799499474407276108128000000, 3826060572795629645664000000, 3852621671183983183200000000, 3879182769572336720736000000, 3905743867960690258272000000, 3932304966349043795808000000, 3958866064737397333344000000]
noncomputable def accM6 : List Nat := [3490717229678675893878769536219296223846254000000000000000000000000000000000000000000000000000000000000000000000000000000, 3489988523649658541513131632354914074313031000000000000000000000000000000000000000000000000000000000000000000000000000000, 3489504590933951764804151496718607340792585000000000000000000000000000000000000000000000000000000000000000000000000000000, 3489000414188723376120257729434478218860026000000000000000000000000000000000000000000000000000000000000000000000000000000, 3488452251499085256119105773776556769071974000000000000000000000000000000000000000000000000000000000000000000000000000000, 3487872786581550921207517876912718018577620000000000000000000000000000000000000000000000000000000000000000000000000000000, 3487276021556456777354393502344620618503840000000000000000000000000000000000000000000000000000000000000000000000000000000, 3486672133245399532983037687072646810074691000000000000000000000000000000000000000000000000000000000000000000000000000000, 3486067705148153848091573721943785330049364000000000000000000000000000000000000000000000000000000000000000000000000000000, 3485466735082401958446128858311570888808723000000000000000000000000000000000000000000000000000000000000000000000000000000, 3484871514560817971469783053537304101858385000000000000000000000000000000000000000000000000000000000000000000000000000000, 3484283254408263256742512355866094732338634000000000000000000000000000000000000000000000000000000000000000000000000000000, 3483702497971538222421902254418687669146677000000000000000000000000000000000000000000000000000000000000000000000000000000, 3483129384795358034692995881460063888785470000000000000000000000000000000000000000000000000000000000000000000000000000000, 3482563815911147002443752641660701261381555000000000000000000000000000000000000000000000000000000000000000000000000000000, 3482005556452443630832175173028074068132978000000000000000000000000000000000000000000000000000000000000000000000000000000, 3481454298917555554836250724692653628164361000000000000000000000000000000000000000000000000000000000000000000000000000000, 3480909701919106043099026117008243156401487000000000000000000000000000000000000000000000000000000000000000000000000000000, 3480371413623989212910253350427604556754752000000000000000000000000000000000000000000000000000000000000000000000000000000, 3479839085757428296721249526504978111840254000000000000000000000000000000000000000000000000000000000000000000000000000000, 3479312381608540304829051169301988671879174000000000000000000000000000000000000000000000000000000000000000000000000000000, 3478790980428287972567571253247297481275058000000000000000000000000000000000000000000000000000000000000000000000000000000, 3478274579489674177072008594906712802344325000000000000000000000000000000000000000000000000000000000000000000000000000000, 3477762894759213378918290678368959382938855000000000000000000000000000000000000000000000000000000000000000000000000000000, 3477255660737266875768173425857694804218758000000000000000000000000000000000000000000000000000000000000000000000000000000, 3476752629774906287377179400985881161049973000000000000000000000000000000000000000000000000000000000000000000000000000000, 3476253571149278234319829631585121648191072000000000000000000000000000000000000000000000000000000000000000000000000000000, 3475758269979365440130253169957175616401096000000000000000000000000000000000000000000000000000000000000000000000000000000, 3475266526120301906910424238440704432107275000000000000000000000000000000000000000000000000000000000000000000000000000000, 3474778153052425826592991897613262948623889000000000000000000000000000000000000000000000000000000000000000000000000000000, 3474292976824892797188669445382491487161730000000000000000000000000000000000000000000000000000000000000000000000000000000, 3473810835052110064668683714744682443893760000000000000000000000000000000000000000000000000000000000000000000000000000000, 3473331575984646271963434283718691644390947000000000000000000000000000000000000000000000000000000000000000000000000000000, 3472855057634931720860602304605294696334440000000000000000000000000000000000000000000000000000000000000000000000000000000, 3472381147001364597328159622243566515083443000000000000000000000000000000000000000000000000000000000000000000000000000000, 3471909719342471197401913495277029576337994000000000000000000000000000000000000000000000000000000000000000000000000000000, 3471440657507582627552064958962383191077065000000000000000000000000000000000000000000000000000000000000000000000000000000, 3470973851351429765710230021163716521714481000000000000000000000000000000000000000000000000000000000000000000000000000000, 3470509197180873181599959613859071135659842000000000000000000000000000000000000000000000000000000000000000000000000000000, 3470046597255255389440081423203764761021421000000000000000000000000000000000000000000000000000000000000000000000000000000]
noncomputable def wM6 : List Nat := [3985427163125750870880000000, 4011988261514104408416000000, 4038549359902457945952000000, 4065110458290811483488000000, 4091671556679165021024000000, 4118232655067518558560000000, 4144793753455872096096000000, 4171354851844225633632000000, 4197915950232579171168000000, 4224477048620932708704000000, 4251038147009286246240000000, 4277599245397639783776000000, 4304160343785993321312000000, 4330721442174346858848000000, 4357282540562700396384000000, 4383843638951053933920000000, 4410404737339407471456000000, 4436965835727761008992000000, 4463526934116114546528000000, 4490088032504468084064000000, 4516649130892821621600000000, 4543210230365039287392000000, 4569771328763912865009000000, 4596332426070506282304000000, 4622893524458859819840000000]
noncomputable def accM7 : List Nat := [4884733211570455943207380873679108223846254000000000000000000000000000000000000000000000000000000000000000000000000000000, 4883565104097052047849834314849608174313031000000000000000000000000000000000000000000000000000000000000000000000000000000, 4882840407251495573983033437761208840792585000000000000000000000000000000000000000000000000000000000000000000000000000000, 4882105820731192237468034646343464418860026000000000000000000000000000000000000000000000000000000000000000000000000000000, 4881311336902232043542777954808398369071974000000000000000000000000000000000000000000000000000000000000000000000000000000, 4880472100007822809413605648365661618577620000000000000000000000000000000000000000000000000000000000000000000000000000000, 4879607739381087253284935169698652718503840000000000000000000000000000000000000000000000000000000000000000000000000000000, 4878732877760089054083880049333406710074691000000000000000000000000000000000000000000000000000000000000000000000000000000, 4877857042849682953662837163199813730049364000000000000000000000000000000000000000000000000000000000000000000000000000000, 4876986038756386285937497777946575288808723000000000000000000000000000000000000000000000000000000000000000000000000000000, 4876123201973860798265885901597820301858385000000000000000000000000000000000000000000000000000000000000000000000000000000, 4875270304047466719775969130366759732338634000000000000000000000000000000000000000000000000000000000000000000000000000000, 4874428149213278293907340686877926669146677000000000000000000000000000000000000000000000000000000000000000000000000000000, 4873596955913166032140261270758061488785470000000000000000000000000000000000000000000000000000000000000000000000000000000, 4872776595947353708090976693850565161381555000000000000000000000000000000000000000000000000000000000000000000000000000000, 4871966742977914454119713031443776868132978000000000000000000000000000000000000000000000000000000000000000000000000000000, 4871166964143234090460714512471316828164361000000000000000000000000000000000000000000000000000000000000000000000000000000, 4870376776240186670841660932473713156401487000000000000000000000000000000000000000000000000000000000000000000000000000000, 4869595679793511671118756478782914656754752000000000000000000000000000000000000000000000000000000000000000000000000000000, 4868823179464348392405413252930730411840254000000000000000000000000000000000000000000000000000000000000000000000000000000, 4868058795791663827660657760179495271879174000000000000000000000000000000000000000000000000000000000000000000000000000000, 4867302071679852454577900879466540081275058000000000000000000000000000000000000000000000000000000000000000000000000000000, 4866552575497681763834870355152739602344325000000000000000000000000000000000000000000000000000000000000000000000000000000, 4865809902151169723704323905985137182938855000000000000000000000000000000000000000000000000000000000000000000000000000000, 4865073672923562852579302801131629604218758000000000000000000000000000000000000000000000000000000000000000000000000000000, 4864343534557223538843677330292660561049973000000000000000000000000000000000000000000000000000000000000000000000000000000, 4863619157961474447095918066974650648191072000000000000000000000000000000000000000000000000000000000000000000000000000000, 4862900236685883716131372847105091516401096000000000000000000000000000000000000000000000000000000000000000000000000000000, 4862186485343412315886642957036268832107275000000000000000000000000000000000000000000000000000000000000000000000000000000, 4861477638041544013523152397976584148623889000000000000000000000000000000000000000000000000000000000000000000000000000000, 4860773446859755242082835970585017087161730000000000000000000000000000000000000000000000000000000000000000000000000000000, 4860073680425252135065114930881664943893760000000000000000000000000000000000000000000000000000000000000000000000000000000, 4859378122566661052063620287058413044390947000000000000000000000000000000000000000000000000000000000000000000000000000000, 4858686571077541526696336945107741396334440000000000000000000000000000000000000000000000000000000000000000000000000000000, 4857998836591919376951835399328492115083443000000000000000000000000000000000000000000000000000000000000000000000000000000, 4857314741547096771624268274113701076337994000000000000000000000000000000000000000000000000000000000000000000000000000000, 4856634119218941097557673139245862191077065000000000000000000000000000000000000000000000000000000000000000000000000000000, 4855956812889981934831317959210483921714481000000000000000000000000000000000000000000000000000000000000000000000000000000, 4855282675045644031056747196033649535659842000000000000000000000000000000000000000000000000000000000000000000000000000000, 4854611566666833446634618528462210961021421000000000000000000000000000000000000000000000000000000000000000000000000000000]
noncomputable def wM7 : List Nat := [4649454622847213357376000000, 4676015721235566894912000000, 4702576819623920432448000000, 4729137918012273969984000000, 4755699016400627507520000000, 4782260114788981045056000000, 4808821213177334582592000000, 4835382311565688120128000000, 4861943409954041657664000000, 4888504508342395195200000000, 4915065606730748732736000000, 4941626705119102270272000000, 4968187803507455807808000000, 4994748901895809345344000000, 5021310000284162882880000000, 5047871098672516420416000000, 5074432197060869957952000000, 5100993295449223495488000000, 5127554393837577033024000000, 5154115492225930570560000000, 5180676590614284108096000000, 5207237689002637645632000000, 5233798787390991183168000000, 5260359885779344720704000000, 5286920984167698258240000000]
noncomputable def accM8 : List Nat := [6526180432700887276225640269463761023846254000000000000000000000000000000000000000000000000000000000000000000000000000000, 6524535128824227811737598628249051374313031000000000000000000000000000000000000000000000000000000000000000000000000000000, 6523559657791813691979765582472786440792585000000000000000000000000000000000000000000000000000000000000000000000000000000, 6522581402293861791688153115165986018860026000000000000000000000000000000000000000000000000000000000000000000000000000000, 6521521029020282231021664216581198369071974000000000000000000000000000000000000000000000000000000000000000000000000000000, 6520397603170931884461382936048061618577620000000000000000000000000000000000000000000000000000000000000000000000000000000, 6519237975702143988414936435527715118503840000000000000000000000000000000000000000000000000000000000000000000000000000000, 6518062354085490942885800693328856310074691000000000000000000000000000000000000000000000000000000000000000000000000000000, 6516883955886440087178522713571538530049364000000000000000000000000000000000000000000000000000000000000000000000000000000, 6515710869291432011528562859455170488808723000000000000000000000000000000000000000000000000000000000000000000000000000000, 6514547780677162116179607841903516301858385000000000000000000000000000000000000000000000000000000000000000000000000000000, 6513397216691736058457994560072826932338634000000000000000000000000000000000000000000000000000000000000000000000000000000, 6512260366018971484290618792833837069146677000000000000000000000000000000000000000000000000000000000000000000000000000000, 6511137603989146684820672439783987888785470000000000000000000000000000000000000000000000000000000000000000000000000000000, 6510028821852780592961323115005784361381555000000000000000000000000000000000000000000000000000000000000000000000000000000, 6508933631694613735814516050761268068132978000000000000000000000000000000000000000000000000000000000000000000000000000000, 6507851493296620818833911570406798428164361000000000000000000000000000000000000000000000000000000000000000000000000000000, 6506781792227682707918943583032100356401487000000000000000000000000000000000000000000000000000000000000000000000000000000, 6505723887470524841812207965718204256754752000000000000000000000000000000000000000000000000000000000000000000000000000000, 6504677140093450374403809525262679211840254000000000000000000000000000000000000000000000000000000000000000000000000000000, 6503640929918094826681725587874880871879174000000000000000000000000000000000000000000000000000000000000000000000000000000, 6502614664823554670981801267608063281275058000000000000000000000000000000000000000000000000000000000000000000000000000000, 6501597785295461641204847732924739602344325000000000000000000000000000000000000000000000000000000000000000000000000000000, 6500589766165508923853188282653981982938855000000000000000000000000000000000000000000000000000000000000000000000000000000, 6499590116548075922620580230416679204218758000000000000000000000000000000000000000000000000000000000000000000000000000000, 6498598378744851074746602748329146961049973000000000000000000000000000000000000000000000000000000000000000000000000000000, 6497614126592747626327158059789293848191072000000000000000000000000000000000000000000000000000000000000000000000000000000, 6496636963473234465584219047895293116401096000000000000000000000000000000000000000000000000000000000000000000000000000000, 6495666520246754831307086746915398432107275000000000000000000000000000000000000000000000000000000000000000000000000000000, 6494702453188536685758293587662958548623889000000000000000000000000000000000000000000000000000000000000000000000000000000, 6493744441983355078290255851310924287161730000000000000000000000000000000000000000000000000000000000000000000000000000000, 6492792187839308664955685952425172143893760000000000000000000000000000000000000000000000000000000000000000000000000000000, 6491845411723660724956880908723878644390947000000000000000000000000000000000000000000000000000000000000000000000000000000, 6490903852736744368923586466929539796334440000000000000000000000000000000000000000000000000000000000000000000000000000000, 6489967266623934974972294371998840915083443000000000000000000000000000000000000000000000000000000000000000000000000000000, 6489035424429919477162927287836517076337994000000000000000000000000000000000000000000000000000000000000000000000000000000, 6488108111220675222718258118382642991077065000000000000000000000000000000000000000000000000000000000000000000000000000000, 6487185125006892678669727846057639121714481000000000000000000000000000000000000000000000000000000000000000000000000000000, 6486266275688613204117958445199147135659842000000000000000000000000000000000000000000000000000000000000000000000000000000, 6485351384143574488066868527887177361021421000000000000000000000000000000000000000000000000000000000000000000000000000000]
noncomputable def wM8 : List Nat := [5313482082556051795776000000, 5340043180944405333312000000, 5366604280612295744595000000, 5393165379011169322212000000, 5419726476122089994016000000, 5446287574510443531552000000, 5472848672898797069088000000, 5499409771287150606624000000, 5525970869675504144160000000, 5552531968063857681696000000, 5579093066452211219232000000, 5605654164840564756768000000, 5632215263228918294304000000, 5658776361617271831840000000, 5685337460005625369376000000, 5711898558393978906912000000, 5738459656782332444448000000, 5765020755170685981984000000, 5791581853559039519520000000, 5818142951947393057056000000, 5844704050335746594592000000, 5871265148724100132128000000, 5897826247112453669664000000, 5924387345500807207200000000, 5950948443889160744736000000]
noncomputable def accM9 : List Nat := [8371556396022862122475454299375185423846254000000000000000000000000000000000000000000000000000000000000000000000000000000, 8369487235050315197484647918986359874313031000000000000000000000000000000000000000000000000000000000000000000000000000000, 8368335940401621200248576139349534540792585000000000000000000000000000000000000000000000000000000000000000000000000000000, 8367185493992970134225861715256383118860026000000000000000000000000000000000000000000000000000000000000000000000000000000, 8365925005195693039977735585536941469071974000000000000000000000000000000000000000000000000000000000000000000000000000000, 8364578680428513722748975408312383618577620000000000000000000000000000000000000000000000000000000000000000000000000000000, 8363181806505835444289038661890486318503840000000000000000000000000000000000000000000000000000000000000000000000000000000, 8361761008864478283203015013485585210074691000000000000000000000000000000000000000000000000000000000000000000000000000000, 8360333738355995452560618776967246930049364000000000000000000000000000000000000000000000000000000000000000000000000000000, 8358910728699194700694023684307858288808723000000000000000000000000000000000000000000000000000000000000000000000000000000, 8357498267067052996296509897132265101858385000000000000000000000000000000000000000000000000000000000000000000000000000000, 8356099818136698908489728120699300532338634000000000000000000000000000000000000000000000000000000000000000000000000000000, 8354717094779524291550436533192556569146677000000000000000000000000000000000000000000000000000000000000000000000000000000, 8353350740236279260627753677195377788785470000000000000000000000000000000000000000000000000000000000000000000000000000000, 8352000756060333927403162790163398961381555000000000000000000000000000000000000000000000000000000000000000000000000000000, 8350666768653171285296755869343112868132978000000000000000000000000000000000000000000000000000000000000000000000000000000, 8349348194639375985371910324705348928164361000000000000000000000000000000000000000000000000000000000000000000000000000000, 8348044343086669373417821947601029756401487000000000000000000000000000000000000000000000000000000000000000000000000000000, 8346754478249351675687914778120177156754752000000000000000000000000000000000000000000000000000000000000000000000000000000, 8345477857741264693429202374232352111840254000000000000000000000000000000000000000000000000000000000000000000000000000000, 8344213755100683769552028090044664471879174000000000000000000000000000000000000000000000000000000000000000000000000000000, 8342961472719685789359691290848748681275058000000000000000000000000000000000000000000000000000000000000000000000000000000, 8341720348586644634323108290653544902344325000000000000000000000000000000000000000000000000000000000000000000000000000000, 8340489759263582700154591833543899182938855000000000000000000000000000000000000000000000000000000000000000000000000000000, 8339269120477853917359087403485436804218758000000000000000000000000000000000000000000000000000000000000000000000000000000, 8338057886293611137536338971590888161049973000000000000000000000000000000000000000000000000000000000000000000000000000000, 8336855547495074336745150097878548448191072000000000000000000000000000000000000000000000000000000000000000000000000000000, 8335661629470780863578820298174851316401096000000000000000000000000000000000000000000000000000000000000000000000000000000, 8334475689943097503932528439032082932107275000000000000000000000000000000000000000000000000000000000000000000000000000000, 8333297316647522974709472010795535148623889000000000000000000000000000000000000000000000000000000000000000000000000000000, 8332126125060825795884534904741895787161730000000000000000000000000000000000000000000000000000000000000000000000000000000, 8330961756216985396946104664340772343893760000000000000000000000000000000000000000000000000000000000000000000000000000000, 8329803874667941599887800861175729744390947000000000000000000000000000000000000000000000000000000000000000000000000000000, 8328652166598619789719758125642595896334440000000000000000000000000000000000000000000000000000000000000000000000000000000, 8327506338067305485192100517677277815083443000000000000000000000000000000000000000000000000000000000000000000000000000000, 8326366113432037334532332767614401776337994000000000000000000000000000000000000000000000000000000000000000000000000000000, 8325231233852235954005027939212547491077065000000000000000000000000000000000000000000000000000000000000000000000000000000, 8324101456001779394251402383412486121714481000000000000000000000000000000000000000000000000000000000000000000000000000000, 8322976550824374322232048806116087735659842000000000000000000000000000000000000000000000000000000000000000000000000000000, 8321856302454611385190921429132331461021421000000000000000000000000000000000000000000000000000000000000000000000000000000]
noncomputable def wM9 : List Nat := [5977509542277514282272000000, 6004070640665867819808000000, 6030631739054221357344000000, 6057192837442574894880000000, 6083753935830928432416000000, 6110315034219281969952000000, 6136876132607635507488000000, 6163437230995989045024000000, 6189998330859552201798000000, 6216559429258425779415000000, 6243120526173673705728000000, 6269681624562027243264000000, 6296242722950380780800000000, 6322803821338734318336000000, 6349364919727087855872000000, 6375926018115441393408000000, 6402487116503794930944000000, 6429048214892148468480000000, 6455609313280502006016000000, 6482170411668855543552000000, 6508731510057209081088000000, 6535292608445562618624000000, 6561853706833916156160000000, 6588414805222269693696000000, 6614975903610623231232000000]
noncomputable def accM10 : List Nat := [10395111420335618949194601810633294723846254000000000000000000000000000000000000000000000000000000000000000000000000000000, 10392620051781210616429184884814473174313031000000000000000000000000000000000000000000000000000000000000000000000000000000, 10391316103433963970164612782208944440792585000000000000000000000000000000000000000000000000000000000000000000000000000000, 10390015379648230002885717286805479918860026000000000000000000000000000000000000000000000000000000000000000000000000000000, 10388572910345304296657133944251327469071974000000000000000000000000000000000000000000000000000000000000000000000000000000, 10387018846346768178344259457845918218577620000000000000000000000000000000000000000000000000000000000000000000000000000000, 10385397883221693406428642314493937918503840000000000000000000000000000000000000000000000000000000000000000000000000000000, 10383743768775593298497218804943099810074691000000000000000000000000000000000000000000000000000000000000000000000000000000, 10382078652169732694057119832480904030049364000000000000000000000000000000000000000000000000000000000000000000000000000000, 10380416215607336232901326395682810388808723000000000000000000000000000000000000000000000000000000000000000000000000000000, 10378764546521690972811292512241196201858385000000000000000000000000000000000000000000000000000000000000000000000000000000, 10377128181243520119310759668380381432338634000000000000000000000000000000000000000000000000000000000000000000000000000000, 10375509447866212604406585045415463969146677000000000000000000000000000000000000000000000000000000000000000000000000000000, 10373909320415973355817758840348261188785470000000000000000000000000000000000000000000000000000000000000000000000000000000, 10372327954565007305800138016143737261381555000000000000000000000000000000000000000000000000000000000000000000000000000000, 10370765021684012358450193099129149468132978000000000000000000000000000000000000000000000000000000000000000000000000000000, 10369219916633716633774512231857493328164361000000000000000000000000000000000000000000000000000000000000000000000000000000, 10367691886798921345237505575890852456401487000000000000000000000000000000000000000000000000000000000000000000000000000000, 10366180111791930144263640753158572256754752000000000000000000000000000000000000000000000000000000000000000000000000000000, 10364683752446734159754153841466341111840254000000000000000000000000000000000000000000000000000000000000000000000000000000, 10363201980206419741861710780048984971879174000000000000000000000000000000000000000000000000000000000000000000000000000000, 10361733994395342181160258684054068881275058000000000000000000000000000000000000000000000000000000000000000000000000000000, 10360279031618213270087664148862560802344325000000000000000000000000000000000000000000000000000000000000000000000000000000, 10358836370358820443962551654124166682938855000000000000000000000000000000000000000000000000000000000000000000000000000000, 10357405332488631452052875362657789504218758000000000000000000000000000000000000000000000000000000000000000000000000000000, 10355985282906208039802998245738665961049973000000000000000000000000000000000000000000000000000000000000000000000000000000, 10354575628100116404283384149883632948191072000000000000000000000000000000000000000000000000000000000000000000000000000000, 10353175814016735369980112438310550916401096000000000000000000000000000000000000000000000000000000000000000000000000000000, 10351785323648886797176148122054145232107275000000000000000000000000000000000000000000000000000000000000000000000000000000, 10350403674541502424082516053264082548623889000000000000000000000000000000000000000000000000000000000000000000000000000000, 10349030416266209211090691842000591587161730000000000000000000000000000000000000000000000000000000000000000000000000000000, 10347665127986690485035641323334156243893760000000000000000000000000000000000000000000000000000000000000000000000000000000, 10346307416153157477199141796219593844390947000000000000000000000000000000000000000000000000000000000000000000000000000000, 10344956912378821265691743990703531496334440000000000000000000000000000000000000000000000000000000000000000000000000000000, 10343613271421342901866125816165967415083443000000000000000000000000000000000000000000000000000000000000000000000000000000, 10342276169381004935179521201079116376337994000000000000000000000000000000000000000000000000000000000000000000000000000000, 10340945301981466843093629973174824091077065000000000000000000000000000000000000000000000000000000000000000000000000000000, 10339620383089123524353299934590631321714481000000000000000000000000000000000000000000000000000000000000000000000000000000, 10338301143263176344158023709312096235659842000000000000000000000000000000000000000000000000000000000000000000000000000000, 10336987328514906933462370875062817061021421000000000000000000000000000000000000000000000000000000000000000000000000000000]
noncomputable def wM10 : List Nat := [6641537001998976768768000000, 6668098100387330306304000000, 6694659198775683843840000000, 6721220297164037381376000000, 6747781395552390918912000000, 6774342493940744456448000000, 6800903592329097993984000000, 6827464690717451531520000000, 6854025789105805069056000000, 6880586887494158606592000000, 6907147985882512144128000000, 6933709084270865681664000000, 6960270182659219219200000000, 6986831281047572756736000000, 7013392379435926294272000000, 7039953479501474220585000000, 7066514577900347798202000000, 7093075674613610954976000000, 7119636773001964492512000000, 7146197871390318030048000000, 7172758969778671567584000000, 7199320068167025105120000000, 7225881166555378642656000000, 7252442264943732180192000000, 7279003363332085717728000000]
noncomputable def accM11 : List Nat := [12579625578914918944055501107610369823846254000000000000000000000000000000000000000000000000000000000000000000000000000000, 12576695243425316482848949629123152074313031000000000000000000000000000000000000000000000000000000000000000000000000000000, 12575239324666138799763979078906693740792585000000000000000000000000000000000000000000000000000000000000000000000000000000, 12573786541511903071685859892302888118860026000000000000000000000000000000000000000000000000000000000000000000000000000000, 12572155955212593786519626011377630569071974000000000000000000000000000000000000000000000000000000000000000000000000000000, 12570384592231368868967031601664935118577620000000000000000000000000000000000000000000000000000000000000000000000000000000, 12568527557247086063242641379119201118503840000000000000000000000000000000000000000000000000000000000000000000000000000000, 12566626449914585849768850820452563510074691000000000000000000000000000000000000000000000000000000000000000000000000000000, 12564708617423887241012752211530960830049364000000000000000000000000000000000000000000000000000000000000000000000000000000, 12562791030979661829787481516508763588808723000000000000000000000000000000000000000000000000000000000000000000000000000000, 12560883812110334435791533741884083901858385000000000000000000000000000000000000000000000000000000000000000000000000000000, 12558992731211499191841221800299575732338634000000000000000000000000000000000000000000000000000000000000000000000000000000, 12557120845899441602125461220147773569146677000000000000000000000000000000000000000000000000000000000000000000000000000000, 12555269542627252914586092938286312588785470000000000000000000000000000000000000000000000000000000000000000000000000000000, 12553439190490704388060820011477082661381555000000000000000000000000000000000000000000000000000000000000000000000000000000, 12551629549662058142439744950574794268132978000000000000000000000000000000000000000000000000000000000000000000000000000000, 12549840026300011202420093844321334528164361000000000000000000000000000000000000000000000000000000000000000000000000000000, 12548069831517179154036907681429540056401487000000000000000000000000000000000000000000000000000000000000000000000000000000, 12546318080226541743160120507554251456754752000000000000000000000000000000000000000000000000000000000000000000000000000000, 12544583852433058951395068647274267211840254000000000000000000000000000000000000000000000000000000000000000000000000000000, 12542866230476696679615874230349476971879174000000000000000000000000000000000000000000000000000000000000000000000000000000, 12541164321377643035393053820128225281275058000000000000000000000000000000000000000000000000000000000000000000000000000000, 12539477269424540594904921757654603802344325000000000000000000000000000000000000000000000000000000000000000000000000000000, 12537804262751457254876943050971236082938855000000000000000000000000000000000000000000000000000000000000000000000000000000, 12536144536060722749506873809429634804218758000000000000000000000000000000000000000000000000000000000000000000000000000000, 12534497370922791911023461407497263861049973000000000000000000000000000000000000000000000000000000000000000000000000000000, 12532862094668699571462099251925213048191072000000000000000000000000000000000000000000000000000000000000000000000000000000, 12531238078371002030532192573168424416401096000000000000000000000000000000000000000000000000000000000000000000000000000000, 12529624734395586838405175129809311132107275000000000000000000000000000000000000000000000000000000000000000000000000000000, 12528021513780165649257731577547738548623889000000000000000000000000000000000000000000000000000000000000000000000000000000, 12526427903530065491101254527732018987161730000000000000000000000000000000000000000000000000000000000000000000000000000000, 12524843423982169455946396162462950143893760000000000000000000000000000000000000000000000000000000000000000000000000000000, 12523267626271683814546544831714686844390947000000000000000000000000000000000000000000000000000000000000000000000000000000, 12521700089994668986681190272418073496334440000000000000000000000000000000000000000000000000000000000000000000000000000000, 12520140420970227876262815263586755415083443000000000000000000000000000000000000000000000000000000000000000000000000000000, 12518588249216195642325118142287364776337994000000000000000000000000000000000000000000000000000000000000000000000000000000, 12517043227046563661450609243415329791077065000000000000000000000000000000000000000000000000000000000000000000000000000000, 12515505027400748147743437964119415421714481000000000000000000000000000000000000000000000000000000000000000000000000000000, 12513973342214402304355968912946287735659842000000000000000000000000000000000000000000000000000000000000000000000000000000, 12512447881023303324332630001461019361021421000000000000000000000000000000000000000000000000000000000000000000000000000000]
noncomputable def wM11 : List Nat := [7305564461720439255264000000, 7332125560108792792800000000, 7358686658497146330336000000, 7385247756885499867872000000, 7411808855273853405408000000, 7438369953662206942944000000, 7464931052050560480480000000, 7491492150438914018016000000, 7518053248827267555552000000, 7544614347215621093088000000, 7571175445603974630624000000, 7597736543992328168160000000, 7624297642380681705696000000, 7650858740769035243232000000, 7677419839157388780768000000, 7703980937545742318304000000, 7730542035934095855840000000, 7757103134322449393376000000, 7783664232710802930912000000, 7810225331099156468448000000, 7836786429487510005984000000, 7863347529748730677788000000, 7889908628147604255405000000, 7916469724665194666688000000, 7943030823053548204224000000]
noncomputable def accM12 : List Nat := [14890535712502768537365608147416388223846254000000000000000000000000000000000000000000000000000000000000000000000000000000, 14887198431818445866504270406746913574313031000000000000000000000000000000000000000000000000000000000000000000000000000000, 14885628679280957479715189203828918740792585000000000000000000000000000000000000000000000000000000000000000000000000000000, 14884055120193441002061116369758722718860026000000000000000000000000000000000000000000000000000000000000000000000000000000, 14882260799768107367014904681291350469071974000000000000000000000000000000000000000000000000000000000000000000000000000000, 14880291173910532406243393911465941518577620000000000000000000000000000000000000000000000000000000000000000000000000000000, 14878212993863546256022304505081949018503840000000000000000000000000000000000000000000000000000000000000000000000000000000, 14876076547999792222703156851701986510074691000000000000000000000000000000000000000000000000000000000000000000000000000000, 14873914956736835905000630848194649330049364000000000000000000000000000000000000000000000000000000000000000000000000000000, 14871748897939031820463158047834602588808723000000000000000000000000000000000000000000000000000000000000000000000000000000, 14869590846801633919333160990531962001858385000000000000000000000000000000000000000000000000000000000000000000000000000000, 14867448061939947010323372680270484332338634000000000000000000000000000000000000000000000000000000000000000000000000000000, 14865324537967147398782936352883891469146677000000000000000000000000000000000000000000000000000000000000000000000000000000, 14863222246054587851278307144568942288785470000000000000000000000000000000000000000000000000000000000000000000000000000000, 14861141913520066076501688326967091161381555000000000000000000000000000000000000000000000000000000000000000000000000000000, 14859083512161119153119907667746468268132978000000000000000000000000000000000000000000000000000000000000000000000000000000, 14857046564389816051843042467512862928164361000000000000000000000000000000000000000000000000000000000000000000000000000000, 14855030335350141929250275828635900356401487000000000000000000000000000000000000000000000000000000000000000000000000000000, 14853033953483619665343916307634250856754752000000000000000000000000000000000000000000000000000000000000000000000000000000, 14851056486108345198761538788814310611840254000000000000000000000000000000000000000000000000000000000000000000000000000000, 14849096986226823111133031156865279371879174000000000000000000000000000000000000000000000000000000000000000000000000000000, 14847154521244334328894203105205130881275058000000000000000000000000000000000000000000000000000000000000000000000000000000, 14845228189852874247726249308792536802344325000000000000000000000000000000000000000000000000000000000000000000000000000000, 14843317131495595237584311483767125982938855000000000000000000000000000000000000000000000000000000000000000000000000000000, 14841420531034780967546379900781817104218758000000000000000000000000000000000000000000000000000000000000000000000000000000, 14839537620312225640120210499644016661049973000000000000000000000000000000000000000000000000000000000000000000000000000000, 14837667677899825349062624571723796348191072000000000000000000000000000000000000000000000000000000000000000000000000000000, 14835810027609578643454859021813396016401096000000000000000000000000000000000000000000000000000000000000000000000000000000, 14833964036356273127088113890950488232107275000000000000000000000000000000000000000000000000000000000000000000000000000000, 14832129111714638702318397492761704548623889000000000000000000000000000000000000000000000000000000000000000000000000000000, 14830304699294704735973567915313777887161730000000000000000000000000000000000000000000000000000000000000000000000000000000, 14828490280114012759242510421313303543893760000000000000000000000000000000000000000000000000000000000000000000000000000000, 14826685368020792027883930882619067144390947000000000000000000000000000000000000000000000000000000000000000000000000000000, 14824889507303810745093002272868455396334440000000000000000000000000000000000000000000000000000000000000000000000000000000, 14823102270370898734407144195796325415083443000000000000000000000000000000000000000000000000000000000000000000000000000000, 14821323255628918884549963554838710176337994000000000000000000000000000000000000000000000000000000000000000000000000000000, 14819552085487289817321549555844278391077065000000000000000000000000000000000000000000000000000000000000000000000000000000, 14817788404598214777726089983727460521714481000000000000000000000000000000000000000000000000000000000000000000000000000000, 14816031878125896478353499246948935435659842000000000000000000000000000000000000000000000000000000000000000000000000000000, 14814282190255436456763933951805401961021421000000000000000000000000000000000000000000000000000000000000000000000000000000]
noncomputable def wM12 : List Nat := [7969591921441901741760000000, 7996153019830255279296000000, 8022714118218608816832000000, 8049275216606962354368000000, 8075836314995315891904000000, 8102397413383669429440000000, 8128958511772022966976000000, 8155519610160376504512000000, 8182080708548730042048000000, 8208641806937083579584000000, 8235202905325437117120000000, 8261764003713790654656000000, 8288325102102144192192000000, 8314886200490497729728000000, 8341447298878851267264000000, 8368008397267204804800000000, 8394569495655558342336000000, 8421130594043911879872000000, 8447691692432265417408000000, 8474252790820618954944000000, 8500813889208972492480000000, 8527374987597326030016000000, 8553936085985679567552000000, 8580497184374033105088000000, 8607058282762386642624000000]
noncomputable def accM13 : List Nat := [17256950434749374663996643300325028223846254000000000000000000000000000000000000000000000000000000000000000000000000000000, 17253372977590649477812156025944622374313031000000000000000000000000000000000000000000000000000000000000000000000000000000, 17251839835388154064689550780294889940792585000000000000000000000000000000000000000000000000000000000000000000000000000000, 17250279391599224650896050972188463518860026000000000000000000000000000000000000000000000000000000000000000000000000000000, 17248442720683705637459628799596387269071974000000000000000000000000000000000000000000000000000000000000000000000000000000, 17246386951957310913994805818655387918577620000000000000000000000000000000000000000000000000000000000000000000000000000000, 17244192473280789995384244773118723418503840000000000000000000000000000000000000000000000000000000000000000000000000000000, 17241919485049979079463699319343842510074691000000000000000000000000000000000000000000000000000000000000000000000000000000, 17239607713916521809579058829739206130049364000000000000000000000000000000000000000000000000000000000000000000000000000000, 17237282176068145932878321886359703388808723000000000000000000000000000000000000000000000000000000000000000000000000000000, 17234958214219536323454385245043661201858385000000000000000000000000000000000000000000000000000000000000000000000000000000, 17232645008384108238899604168111751532338634000000000000000000000000000000000000000000000000000000000000000000000000000000, 17230347861354382834989082276768704269146677000000000000000000000000000000000000000000000000000000000000000000000000000000, 17228069649612938203337979216566286288785470000000000000000000000000000000000000000000000000000000000000000000000000000000, 17225811737016353495411984166793267161381555000000000000000000000000000000000000000000000000000000000000000000000000000000, 17223574549669553377972024223234026668132978000000000000000000000000000000000000000000000000000000000000000000000000000000, 17221357938740594202254247699562821328164361000000000000000000000000000000000000000000000000000000000000000000000000000000, 17219161410324058897451677948177871556401487000000000000000000000000000000000000000000000000000000000000000000000000000000, 17216984271535344392335917755158052456754752000000000000000000000000000000000000000000000000000000000000000000000000000000, 17214825723576501254619546425811411411840254000000000000000000000000000000000000000000000000000000000000000000000000000000, 17212684920746431642862317681158668171879174000000000000000000000000000000000000000000000000000000000000000000000000000000, 17210561007770901922946818746504087681275058000000000000000000000000000000000000000000000000000000000000000000000000000000, 17208453142839104612789196468323455202344325000000000000000000000000000000000000000000000000000000000000000000000000000000, 17206360511523345164305753658761346782938855000000000000000000000000000000000000000000000000000000000000000000000000000000, 17204282334692858471201401453138226704218758000000000000000000000000000000000000000000000000000000000000000000000000000000, 17202217872482394291835570230774915861049973000000000000000000000000000000000000000000000000000000000000000000000000000000, 17200166425833649040697950449573332348191072000000000000000000000000000000000000000000000000000000000000000000000000000000, 17198127336343742194924708955856365616401096000000000000000000000000000000000000000000000000000000000000000000000000000000, 17196099985146585101266527560490526632107275000000000000000000000000000000000000000000000000000000000000000000000000000000, 17194083791243092488531282706880834148623889000000000000000000000000000000000000000000000000000000000000000000000000000000, 17192078209480880083284451790464939487161730000000000000000000000000000000000000000000000000000000000000000000000000000000, 17190082728365577419718689060851434743893760000000000000000000000000000000000000000000000000000000000000000000000000000000, 17188096867861525415741795254655079944390947000000000000000000000000000000000000000000000000000000000000000000000000000000, 17186120177254394571637610380303245796334440000000000000000000000000000000000000000000000000000000000000000000000000000000, 17184152233076064415800981157542610215083443000000000000000000000000000000000000000000000000000000000000000000000000000000, 17182192637129964431787839955467970976337994000000000000000000000000000000000000000000000000000000000000000000000000000000, 17180241014653554230085178242878012791077065000000000000000000000000000000000000000000000000000000000000000000000000000000, 17178297012644405472540489400443070121714481000000000000000000000000000000000000000000000000000000000000000000000000000000, 17176360298245662848369107608726644235659842000000000000000000000000000000000000000000000000000000000000000000000000000000, 17174430557291945813825085178977197161021421000000000000000000000000000000000000000000000000000000000000000000000000000000]
noncomputable def wM13 : List Nat := [8633619381150740180160000000, 8660180479539093717696000000, 8686741579995987134991000000, 8713302678394860712608000000, 8739863774716778378400000000, 8766424873105131915936000000, 8792985971493485453472000000, 8819547069881838991008000000, 8846108168270192528544000000, 8872669266658546066080000000, 8899230365046899603616000000, 8925791463435253141152000000, 8952352561823606678688000000, 8978913660211960216224000000, 9005474758600313753760000000, 9032035856988667291296000000, 9058596955377020828832000000, 9085158053765374366368000000, 9111719152153727903904000000, 9138280250542081441440000000, 9164841348930434978976000000, 9191402447318788516512000000, 9217963545707142054048000000, 9244524644095495591584000000, 9271085742483849129120000000]
noncomputable def accM14 : List Nat := [19570641045916546382410864884854803323846254000000000000000000000000000000000000000000000000000000000000000000000000000000, 19567217397650637140528116363244634034313031000000000000000000000000000000000000000000000000000000000000000000000000000000, 19566075081725647396883375739735328140792585000000000000000000000000000000000000000000000000000000000000000000000000000000, 19564860114405289522810176707028008818860026000000000000000000000000000000000000000000000000000000000000000000000000000000, 19563299238789945670783705509283503749071974000000000000000000000000000000000000000000000000000000000000000000000000000000, 19561464925266868694529234310193259878577620000000000000000000000000000000000000000000000000000000000000000000000000000000, 19559453014969777718451487377999006358503840000000000000000000000000000000000000000000000000000000000000000000000000000000, 19557334660126704262260426737386436270074691000000000000000000000000000000000000000000000000000000000000000000000000000000, 19555156940251152504033704464393908690049364000000000000000000000000000000000000000000000000000000000000000000000000000000, 19552949841646401422221015096557417928808723000000000000000000000000000000000000000000000000000000000000000000000000000000, 19550732144514172931320454322239947541858385000000000000000000000000000000000000000000000000000000000000000000000000000000, 19548515469908765233182479421592293272338634000000000000000000000000000000000000000000000000000000000000000000000000000000, 19546306899552966010462906067988751169146677000000000000000000000000000000000000000000000000000000000000000000000000000000, 19544110638183635594598079016495082708785470000000000000000000000000000000000000000000000000000000000000000000000000000000, 19541929063893227024963693763273781281381555000000000000000000000000000000000000000000000000000000000000000000000000000000, 19539763393261207812032134887631169808132978000000000000000000000000000000000000000000000000000000000000000000000000000000, 19537614105174145952937259397597012368164361000000000000000000000000000000000000000000000000000000000000000000000000000000, 19535481212737837004549327665641999996401487000000000000000000000000000000000000000000000000000000000000000000000000000000, 19533364438956549139351437275993813516754752000000000000000000000000000000000000000000000000000000000000000000000000000000, 19531263330975975173433593089510951731840254000000000000000000000000000000000000000000000000000000000000000000000000000000, 19529177334550329678230248032669818771879174000000000000000000000000000000000000000000000000000000000000000000000000000000, 19527105842787404850035038603674946221275058000000000000000000000000000000000000000000000000000000000000000000000000000000, 19525048227783479566592789611766993102344325000000000000000000000000000000000000000000000000000000000000000000000000000000, 19523003861076853748120857022780162542938855000000000000000000000000000000000000000000000000000000000000000000000000000000, 19520972126636412705112386359260871104218758000000000000000000000000000000000000000000000000000000000000000000000000000000, 19518952428747916212331254933695606901049973000000000000000000000000000000000000000000000000000000000000000000000000000000, 19516944196687194587771522845735847808191072000000000000000000000000000000000000000000000000000000000000000000000000000000, 19514946887037730178840665627941851676401096000000000000000000000000000000000000000000000000000000000000000000000000000000, 19512959984589568084357791776844400092107275000000000000000000000000000000000000000000000000000000000000000000000000000000, 19510983002282433136953187960943232468623889000000000000000000000000000000000000000000000000000000000000000000000000000000, 19509015480514540806896618451878037587161730000000000000000000000000000000000000000000000000000000000000000000000000000000, 19507056986074267288668988848058368563893760000000000000000000000000000000000000000000000000000000000000000000000000000000, 19505107110834258472506473949537173804390947000000000000000000000000000000000000000000000000000000000000000000000000000000, 19503165470392556674849077143189148736334440000000000000000000000000000000000000000000000000000000000000000000000000000000, 19501231702645359069762014196457149255083443000000000000000000000000000000000000000000000000000000000000000000000000000000, 19499305466364193606154354759770777216337994000000000000000000000000000000000000000000000000000000000000000000000000000000, 19497386439824257839900932182255988671077065000000000000000000000000000000000000000000000000000000000000000000000000000000, 19495474319544920993038997458304091641714481000000000000000000000000000000000000000000000000000000000000000000000000000000, 19493568819015767811118880621422917675659842000000000000000000000000000000000000000000000000000000000000000000000000000000, 19491669667548884691457144269313007941021421000000000000000000000000000000000000000000000000000000000000000000000000000000]
noncomputable def wM14 : List Nat := [9297646840872202666656000000, 9324207939260556204192000000, 9350769037648909741728000000, 9377330136037263279264000000, 9403891234425616816800000000, 9430452332813970354336000000, 9457013431202323891872000000, 9483574529590677429408000000, 9510135630243243592194000000, 9536696728642117169811000000, 9563257824768362090112000000, 9589818923156715627648000000, 9616380021545069165184000000, 9642941119933422702720000000, 9669502218321776240256000000, 9696063316710129777792000000, 9722624415098483315328000000, 9749185513486836852864000000, 9775746611875190390400000000, 9802307710263543927936000000, 9828868808651897465472000000, 9855429907040251003008000000, 9881991005428604540544000000, 9908552103816958078080000000, 9935113202205311615616000000]
noncomputable def accM15 : List Nat := [21756147159477617803936195872975362403846254000000000000000000000000000000000000000000000000000000000000000000000000000000, 21753454364009445667992768451737263944313031000000000000000000000000000000000000000000000000000000000000000000000000000000, 21753263130165227124818990799360975180792585000000000000000000000000000000000000000000000000000000000000000000000000000000, 21752953238910982999229433632302568818860026000000000000000000000000000000000000000000000000000000000000000000000000000000, 21752229392563768857200809360628314169071974000000000000000000000000000000000000000000000000000000000000000000000000000000, 21751179435412438132690711033620901688577620000000000000000000000000000000000000000000000000000000000000000000000000000000, 21749914350210939867849355374356488168503840000000000000000000000000000000000000000000000000000000000000000000000000000000, 21748515927843706793566048684241859350074691000000000000000000000000000000000000000000000000000000000000000000000000000000, 21747038353127031994521550190761573200049364000000000000000000000000000000000000000000000000000000000000000000000000000000, 21745516406175012185634287193309784018808723000000000000000000000000000000000000000000000000000000000000000000000000000000, 21743972189374795880886648386131194731858385000000000000000000000000000000000000000000000000000000000000000000000000000000, 21742419697011681627682270596910571192338634000000000000000000000000000000000000000000000000000000000000000000000000000000, 21740867756804779331185108401081520709146677000000000000000000000000000000000000000000000000000000000000000000000000000000, 21739321893261354829850615982557835768785470000000000000000000000000000000000000000000000000000000000000000000000000000000, 21737785506544348198271449089491706621381555000000000000000000000000000000000000000000000000000000000000000000000000000000, 21736260621869302451796256281874743858132978000000000000000000000000000000000000000000000000000000000000000000000000000000, 21734748369972353905040618365056822088164361000000000000000000000000000000000000000000000000000000000000000000000000000000, 21733249298015460380760750124965468936401487000000000000000000000000000000000000000000000000000000000000000000000000000000, 21731763572707028849067634753727430176754752000000000000000000000000000000000000000000000000000000000000000000000000000000, 21730291114260987549235964207312410461840254000000000000000000000000000000000000000000000000000000000000000000000000000000, 21728831685285948084127207508041204151879174000000000000000000000000000000000000000000000000000000000000000000000000000000, 21727384950272511506239568168426270331275058000000000000000000000000000000000000000000000000000000000000000000000000000000, 21725950515342346922402848536373326542344325000000000000000000000000000000000000000000000000000000000000000000000000000000, 21724527954923987302838865119035900222938855000000000000000000000000000000000000000000000000000000000000000000000000000000, 21723116829580361335835197645090141654218758000000000000000000000000000000000000000000000000000000000000000000000000000000, 21721716697692960610402476043052970681049973000000000000000000000000000000000000000000000000000000000000000000000000000000, 21720327123167094175323339794824616148191072000000000000000000000000000000000000000000000000000000000000000000000000000000, 21718947680184048940288646218481534466401096000000000000000000000000000000000000000000000000000000000000000000000000000000, 21717577956090236419214486521960243332107275000000000000000000000000000000000000000000000000000000000000000000000000000000, 21716217552978048591166947975588597168623889000000000000000000000000000000000000000000000000000000000000000000000000000000, 21714866088360637160043401276883824477161730000000000000000000000000000000000000000000000000000000000000000000000000000000, 21713523195258566595930113940629826623893760000000000000000000000000000000000000000000000000000000000000000000000000000000, 21712188521879755366402620458448063554390947000000000000000000000000000000000000000000000000000000000000000000000000000000, 21710861731114749903676326819216683686334440000000000000000000000000000000000000000000000000000000000000000000000000000000, 21709542499853098642237272402272513925083443000000000000000000000000000000000000000000000000000000000000000000000000000000, 21708230518220610831483615433166310406337994000000000000000000000000000000000000000000000000000000000000000000000000000000, 21706925488799875920132813529330503451077065000000000000000000000000000000000000000000000000000000000000000000000000000000, 21705627125901285706417737291978707951714481000000000000000000000000000000000000000000000000000000000000000000000000000000, 21704335154774108774272735546225696965659842000000000000000000000000000000000000000000000000000000000000000000000000000000, 21703049310904285421702290096125234391021421000000000000000000000000000000000000000000000000000000000000000000000000000000]
noncomputable def wM15 : List Nat := [9961674300593665153152000000, 9988235398982018690688000000, 10014796497370372228224000000, 10041357595758725765760000000, 10067918694147079303296000000, 10094479792535432840832000000, 10121040890923786378368000000, 10147601989312139915904000000, 10174163087700493453440000000, 10200724186088846990976000000, 10227285284477200528512000000, 10253846382865554066048000000, 10280407481253907603584000000, 10306968579642261141120000000, 10333529680490500049397000000, 10360090778889373627014000000, 10386651874819945801824000000, 10413212973208299339360000000, 10439774071596652876896000000, 10466335169985006414432000000, 10492896268373359951968000000, 10519457366761713489504000000, 10546018465150067027040000000, 10572579563538420564576000000, 10599140661926774102112000000]
noncomputable def accM16 : List Nat := [24047360527135802065963442150445065883846254000000000000000000000000000000000000000000000000000000000000000000000000000000, 24046059166602474031320762498375581704313031000000000000000000000000000000000000000000000000000000000000000000000000000000, 24047671698296119356585997988612370480792585000000000000000000000000000000000000000000000000000000000000000000000000000000, 24049227546013538691065326654886490688860026000000000000000000000000000000000000000000000000000000000000000000000000000000, 24050361129388952369362053803386317179071974000000000000000000000000000000000000000000000000000000000000000000000000000000, 24051147061541216335343490376279873268577620000000000000000000000000000000000000000000000000000000000000000000000000000000, 24051694933042629459863056548394992118503840000000000000000000000000000000000000000000000000000000000000000000000000000000, 24052086818630916939815100336120033500074691000000000000000000000000000000000000000000000000000000000000000000000000000000, 24052376581190772957171141936044628690049364000000000000000000000000000000000000000000000000000000000000000000000000000000, 24052597861057933791715598343914217508808723000000000000000000000000000000000000000000000000000000000000000000000000000000, 24052771081765670989728749359813124891858385000000000000000000000000000000000000000000000000000000000000000000000000000000, 24052908327742079623812319566953503322338634000000000000000000000000000000000000000000000000000000000000000000000000000000, 24053016511516055378629029049756279619146677000000000000000000000000000000000000000000000000000000000000000000000000000000, 24053099375937158276143607044977314568785470000000000000000000000000000000000000000000000000000000000000000000000000000000, 24053158746701867038546476428236058001381555000000000000000000000000000000000000000000000000000000000000000000000000000000, 24053195312425547927861024068618795848132978000000000000000000000000000000000000000000000000000000000000000000000000000000, 24053209109637570889192862551530177508164361000000000000000000000000000000000000000000000000000000000000000000000000000000, 24053199823393937556771281766102087546401487000000000000000000000000000000000000000000000000000000000000000000000000000000, 24053166972476632119127330942985445896754752000000000000000000000000000000000000000000000000000000000000000000000000000000, 24053110022160170288507119901114047641840254000000000000000000000000000000000000000000000000000000000000000000000000000000, 24053028451196933787573760665725037131879174000000000000000000000000000000000000000000000000000000000000000000000000000000, 24052921790111135134921129725243822021275058000000000000000000000000000000000000000000000000000000000000000000000000000000, 24052789641199078904837071052356359812344325000000000000000000000000000000000000000000000000000000000000000000000000000000, 24052631687236211952595164180907366582938855000000000000000000000000000000000000000000000000000000000000000000000000000000, 24052447693198418486262899411620066114218758000000000000000000000000000000000000000000000000000000000000000000000000000000, 24052237503662996868897923563252400901049973000000000000000000000000000000000000000000000000000000000000000000000000000000, 24052001037940786596910973982266946888191072000000000000000000000000000000000000000000000000000000000000000000000000000000, 24051738283814174421714439183799147556401096000000000000000000000000000000000000000000000000000000000000000000000000000000, 24051449290822240982611342444422726582107275000000000000000000000000000000000000000000000000000000000000000000000000000000, 24051134163482519030895494809702658418623889000000000000000000000000000000000000000000000000000000000000000000000000000000, 24050793054714473088341059092688356467161730000000000000000000000000000000000000000000000000000000000000000000000000000000, 24050426159641241640456576465351242213893760000000000000000000000000000000000000000000000000000000000000000000000000000000, 24050033709833805606451373783728176104390947000000000000000000000000000000000000000000000000000000000000000000000000000000, 24049615968108119612826491491727715136334440000000000000000000000000000000000000000000000000000000000000000000000000000000, 24049173223787171769322389530452480725083443000000000000000000000000000000000000000000000000000000000000000000000000000000, 24048705788444738009816828285256462046337994000000000000000000000000000000000000000000000000000000000000000000000000000000, 24048213992117174782790575226440631221077065000000000000000000000000000000000000000000000000000000000000000000000000000000, 24047698179985817315663781124393128041714481000000000000000000000000000000000000000000000000000000000000000000000000000000, 24047158709368699848770515510279230045659842000000000000000000000000000000000000000000000000000000000000000000000000000000, 24046595947113701150538585408300281911021421000000000000000000000000000000000000000000000000000000000000000000000000000000]
noncomputable def wM16 : List Nat := [10625701760315127639648000000, 10652262858703481177184000000, 10678823957091834714720000000, 10705385055480188252256000000, 10731946153868541789792000000, 10758507252256895327328000000, 10785068350645248864864000000, 10811629449033602402400000000, 10838190547421955939936000000, 10864751645810309477472000000, 10891312744198663015008000000, 10917873842587016552544000000, 10944434940975370090080000000, 10970996039363723627616000000, 10997557137752077165152000000, 11024118236140430702688000000, 11050679334528784240224000000, 11077240432917137777760000000, 11103801531305491315296000000, 11130362629693844852832000000, 11156923728082198390368000000, 11183484829132422068184000000, 11210045927531295645801000000, 11236607023259883051072000000, 11263168121648236588608000000]
noncomputable def accM17 : List Nat := [27018590015457814212211862700875502243846254000000000000000000000000000000000000000000000000000000000000000000000000000000, 27005146623068280716919659661593654014313031000000000000000000000000000000000000000000000000000000000000000000000000000000, 26994859766001551497148674793159813310792585000000000000000000000000000000000000000000000000000000000000000000000000000000, 26984519902560661628062229857346288398860026000000000000000000000000000000000000000000000000000000000000000000000000000000, 26973807069140331096292803999604171019071974000000000000000000000000000000000000000000000000000000000000000000000000000000, 26962859567600235459953679106120940888577620000000000000000000000000000000000000000000000000000000000000000000000000000000, 26951829592629396027045551311190486758503840000000000000000000000000000000000000000000000000000000000000000000000000000000, 26940824408877449064840703251706427150074691000000000000000000000000000000000000000000000000000000000000000000000000000000, 26929912308126850630973027388454464870049364000000000000000000000000000000000000000000000000000000000000000000000000000000, 26919134878988708425642778532820069828808723000000000000000000000000000000000000000000000000000000000000000000000000000000, 26908516431817549079206164238618415501858385000000000000000000000000000000000000000000000000000000000000000000000000000000, 26898070262636246012676863603731258592338634000000000000000000000000000000000000000000000000000000000000000000000000000000, 26887802663055620358325109233698786449146677000000000000000000000000000000000000000000000000000000000000000000000000000000, 26877715469333437072616394345713794428785470000000000000000000000000000000000000000000000000000000000000000000000000000000, 26867807689495743317084466953584201371381555000000000000000000000000000000000000000000000000000000000000000000000000000000, 26858076550151083157817074604814240818132978000000000000000000000000000000000000000000000000000000000000000000000000000000, 26848518176497910441522062605467513698164361000000000000000000000000000000000000000000000000000000000000000000000000000000, 26839128037767786469532095314059473656401487000000000000000000000000000000000000000000000000000000000000000000000000000000, 26829901241188779375990655507870316576754752000000000000000000000000000000000000000000000000000000000000000000000000000000, 26820832726789476688138383146972914311840254000000000000000000000000000000000000000000000000000000000000000000000000000000, 26811917396497246132436876177760480731879174000000000000000000000000000000000000000000000000000000000000000000000000000000, 26803150199364824462260381683148806681275058000000000000000000000000000000000000000000000000000000000000000000000000000000, 26794526186981427351650109281016122942344325000000000000000000000000000000000000000000000000000000000000000000000000000000, 26786040548668502927603763443938495432938855000000000000000000000000000000000000000000000000000000000000000000000000000000, 26777688632840429269581843889357943044218758000000000000000000000000000000000000000000000000000000000000000000000000000000, 26769465958741933944543457765185138411049973000000000000000000000000000000000000000000000000000000000000000000000000000000, 26761368221788785498379050471928285818191072000000000000000000000000000000000000000000000000000000000000000000000000000000, 26753391294278508677063853746822050506401096000000000000000000000000000000000000000000000000000000000000000000000000000000, 26745531223189233391107621407811659922107275000000000000000000000000000000000000000000000000000000000000000000000000000000, 26737784225945779166032711335100439808623889000000000000000000000000000000000000000000000000000000000000000000000000000000, 26730146684905527164398917136688158037161730000000000000000000000000000000000000000000000000000000000000000000000000000000, 26722615141058511702878130399237635783893760000000000000000000000000000000000000000000000000000000000000000000000000000000, 26715186287259053802844767108386359244390947000000000000000000000000000000000000000000000000000000000000000000000000000000, 26707856961354253424210659079677760116334440000000000000000000000000000000000000000000000000000000000000000000000000000000, 26700624139264877186259563055863996745083443000000000000000000000000000000000000000000000000000000000000000000000000000000, 26693484928172273660428010360939146996337994000000000000000000000000000000000000000000000000000000000000000000000000000000, 26686436559887110444208794810748657491077065000000000000000000000000000000000000000000000000000000000000000000000000000000, 26679476384529711988294519472986405961714481000000000000000000000000000000000000000000000000000000000000000000000000000000, 26672601864391029292108952815899024135659842000000000000000000000000000000000000000000000000000000000000000000000000000000, 26665810568105991877430725575848147281021421000000000000000000000000000000000000000000000000000000000000000000000000000000]
noncomputable def wM17 : List Nat := [11289729220036590126144000000, 11316290318424943663680000000, 11342851416813297201216000000, 11369412515201650738752000000, 11395973613590004276288000000, 11422534711978357813824000000, 11449095810366711351360000000, 11475656908755064888896000000, 11502218007143418426432000000, 11528779105531771963968000000, 11555340203920125501504000000, 11581901302308479039040000000, 11608462400696832576576000000, 11635023499085186114112000000, 11661584597473539651648000000, 11688145695861893189184000000, 11714706794250246726720000000, 11741267892638600264256000000, 11767828991026953801792000000, 11794390089415307339328000000, 11820951187803660876864000000, 11847512286192014414400000000, 11874073384580367951936000000, 11900634482968721489472000000, 11927195581357075027008000000]
noncomputable def accM18 : List Nat := [27611712224263118138500787542805426211846254000000000000000000000000000000000000000000000000000000000000000000000000000000, 27617148451439588720045732549936870398313031000000000000000000000000000000000000000000000000000000000000000000000000000000, 27624900758055421968653713734656660862792585000000000000000000000000000000000000000000000000000000000000000000000000000000, 27631886130613172392756097807695309774860026000000000000000000000000000000000000000000000000000000000000000000000000000000, 27637908772586330515952871059068764683071974000000000000000000000000000000000000000000000000000000000000000000000000000000, 27643190651350375800166558886390024408577620000000000000000000000000000000000000000000000000000000000000000000000000000000, 27647932015394222915750408128451900710503840000000000000000000000000000000000000000000000000000000000000000000000000000000, 27652269101049930630272047868047130126074691000000000000000000000000000000000000000000000000000000000000000000000000000000, 27656291092790334861288265438455167718049364000000000000000000000000000000000000000000000000000000000000000000000000000000, 27660057436853713316824081408460608324808723000000000000000000000000000000000000000000000000000000000000000000000000000000, 27663609075958388418192144468596447885858385000000000000000000000000000000000000000000000000000000000000000000000000000000, 27666975175472074262463973983830654816338634000000000000000000000000000000000000000000000000000000000000000000000000000000, 27670177150548880090536274614262062737146677000000000000000000000000000000000000000000000000000000000000000000000000000000, 27673231142321757432506963585802484284785470000000000000000000000000000000000000000000000000000000000000000000000000000000, 27676149594799968532322191257206082843381555000000000000000000000000000000000000000000000000000000000000000000000000000000, 27678942294823732445482737729819073458132978000000000000000000000000000000000000000000000000000000000000000000000000000000, 27681617080603137296416934094843640162164361000000000000000000000000000000000000000000000000000000000000000000000000000000, 27684180337902165832827516935559661560401487000000000000000000000000000000000000000000000000000000000000000000000000000000, 27686637355849319268981541702255163360754752000000000000000000000000000000000000000000000000000000000000000000000000000000, 27688992587005893880757653690024910151840254000000000000000000000000000000000000000000000000000000000000000000000000000000, 27691249840423287569985335795835851291879174000000000000000000000000000000000000000000000000000000000000000000000000000000, 27693412426866930823755515569269766425275058000000000000000000000000000000000000000000000000000000000000000000000000000000, 27695483269033838864938939529757436862344325000000000000000000000000000000000000000000000000000000000000000000000000000000, 27697464985923298621374737062754621896938855000000000000000000000000000000000000000000000000000000000000000000000000000000, 27699359957839042948929494136413915140218758000000000000000000000000000000000000000000000000000000000000000000000000000000, 27701170376561127684815554112303432619049973000000000000000000000000000000000000000000000000000000000000000000000000000000, 27702898284386097093051627790568739066191072000000000000000000000000000000000000000000000000000000000000000000000000000000, 27704545604306209766968857105200905866401096000000000000000000000000000000000000000000000000000000000000000000000000000000, 27706114163547442911899752587119182482107275000000000000000000000000000000000000000000000000000000000000000000000000000000, 27707605711825620627363288827861494272623889000000000000000000000000000000000000000000000000000000000000000000000000000000, 27709021935490490313845677415345242517161730000000000000000000000000000000000000000000000000000000000000000000000000000000, 27710364468456350616627026282740386695893760000000000000000000000000000000000000000000000000000000000000000000000000000000, 27711634900559861162931163489387057484390947000000000000000000000000000000000000000000000000000000000000000000000000000000, 27712834784012315779505747233266907636334440000000000000000000000000000000000000000000000000000000000000000000000000000000, 27713965638262027913431624970704062537083443000000000000000000000000000000000000000000000000000000000000000000000000000000, 27715028953630027337722927319257314676337994000000000000000000000000000000000000000000000000000000000000000000000000000000, 27716026193996790412730585004202545811077065000000000000000000000000000000000000000000000000000000000000000000000000000000, 27716958798820529369533733174884220873714481000000000000000000000000000000000000000000000000000000000000000000000000000000, 27717828184500078029814193562886073287659842000000000000000000000000000000000000000000000000000000000000000000000000000000, 27718635745324303831944185874805715281021421000000000000000000000000000000000000000000000000000000000000000000000000000000]
noncomputable def wM18 : List Nat := [11953756679745428564544000000, 11980317778133782102080000000, 12006878879379678525387000000, 12033439977778552103004000000, 12060001073311466762784000000, 12086562171699820300320000000, 12113123270088173837856000000, 12139684368476527375392000000, 12166245466864880912928000000, 12192806565253234450464000000, 12219367663641587988000000000, 12245928762029941525536000000, 12272489860418295063072000000, 12299050958806648600608000000, 12325612057195002138144000000, 12352173155583355675680000000, 12378734253971709213216000000, 12405295352360062750752000000, 12431856450748416288288000000, 12458417549136769825824000000, 12484978647525123363360000000, 12511539745913476900896000000, 12538100844301830438432000000, 12564661942690183975968000000, 12591223041078537513504000000]
noncomputable def accM19 : List Nat := [27613842763602037578810760081754968876188137649831958133216000000000000000000000000000000000000000000000000000000000000000, 27620566056175386255807241636393341288846282618708480000000000000000000000000000000000000000000000000000000000000000000000, 27629621895791447999454481417475949510858441360000000000000000000000000000000000000000000000000000000000000000000000000000, 27637932904983704642479709230427249023611046448000000000000000000000000000000000000000000000000000000000000000000000000000, 27645311509142634054761976563309371624243229040000000000000000000000000000000000000000000000000000000000000000000000000000, 27651985999987859131765646429229099727135450400000000000000000000000000000000000000000000000000000000000000000000000000000, 27658159678296164075627588967255494181980064000000000000000000000000000000000000000000000000000000000000000000000000000000, 27663969680355352350622969780033974518498051000000000000000000000000000000000000000000000000000000000000000000000000000000, 27669505296416329922135430335059229092085204000000000000000000000000000000000000000000000000000000000000000000000000000000, 27674826069069629640363263421496105138626323000000000000000000000000000000000000000000000000000000000000000000000000000000, 27679973308495434247395703267829802767339985000000000000000000000000000000000000000000000000000000000000000000000000000000, 27684976833990954663441768205614478750474634000000000000000000000000000000000000000000000000000000000000000000000000000000, 27689858919702151970714288999252392436050677000000000000000000000000000000000000000000000000000000000000000000000000000000, 27694636674867914711463383620019942509865470000000000000000000000000000000000000000000000000000000000000000000000000000000, 27699323540333648162177764959773396986389555000000000000000000000000000000000000000000000000000000000000000000000000000000, 27703930269821490690725955381890777896980978000000000000000000000000000000000000000000000000000000000000000000000000000000, 27708465598906888519091473293539655414636361000000000000000000000000000000000000000000000000000000000000000000000000000000, 27712936716171016694215180217706825659297487000000000000000000000000000000000000000000000000000000000000000000000000000000, 27717349604312605525394118182197039785786752000000000000000000000000000000000000000000000000000000000000000000000000000000, 27721709292636630011133026481698909929080254000000000000000000000000000000000000000000000000000000000000000000000000000000, 27726020047370085600471049731785771939039174000000000000000000000000000000000000000000000000000000000000000000000000000000, 27730285517414230648211715185910275739275058000000000000000000000000000000000000000000000000000000000000000000000000000000, 27734508847295179728307459345886853241624325000000000000000000000000000000000000000000000000000000000000000000000000000000, 27738692765744962263070153432276903431498855000000000000000000000000000000000000000000000000000000000000000000000000000000, 27742839655888931118583277955679601350698758000000000000000000000000000000000000000000000000000000000000000000000000000000, 27746951611224848346915331171779461454169973000000000000000000000000000000000000000000000000000000000000000000000000000000, 27751030480839252090634998990115084034951072000000000000000000000000000000000000000000000000000000000000000000000000000000, 27755077905948097022865307005650562982721096000000000000000000000000000000000000000000000000000000000000000000000000000000, 27759095349845657074326702637188592339067275000000000000000000000000000000000000000000000000000000000000000000000000000000, 27763084122519760259351756798746523778383889000000000000000000000000000000000000000000000000000000000000000000000000000000, 27767045401029623592332430764462714677441730000000000000000000000000000000000000000000000000000000000000000000000000000000, 27770980246488477484523517406557026419933760000000000000000000000000000000000000000000000000000000000000000000000000000000, 27774889618252798878987432042823188904790947000000000000000000000000000000000000000000000000000000000000000000000000000000, 27778774385957518658735855455583277950534440000000000000000000000000000000000000000000000000000000000000000000000000000000, 27782635339694366962235744251077827332283443000000000000000000000000000000000000000000000000000000000000000000000000000000, 27786473198685876710951254789269572683337994000000000000000000000000000000000000000000000000000000000000000000000000000000, 27790288618727781549566986666213107812877065000000000000000000000000000000000000000000000000000000000000000000000000000000, 27794082198680178900051710712059956568714481000000000000000000000000000000000000000000000000000000000000000000000000000000, 27797854486023865184588570586964288071659842000000000000000000000000000000000000000000000000000000000000000000000000000000, 27801605981729467557364217745344353747621421000000000000000000000000000000000000000000000000000000000000000000000000000000]
noncomputable def wM19 : List Nat := [12617784136464171612164000000, 12644345246878130961325000000, 12670906330217119168200000000, 12697467428601264689700000000, 12724028557223005401600000000, 12750589625369555732700000000, 12777150723753701254200000000, 12803711822095766615400000000, 12830272920479912136900000000, 12856834049417254051200000000, 12883395117248203179900000000, 12909956215632348701400000000, 12936517313974414062600000000, 12963078412358559584100000000, 12989639541611502700800000000, 13016200609126850627100000000, 13042761707510996148600000000, 13069322805853061509800000000, 13095883904237207031300000000, 13122445033805751350400000000, 13149006101005498074300000000, 13175567199389643595800000000, 13202128297731708957000000000, 13228689396115854478500000000, 6623198413251775679600000000]
noncomputable def accM20 : List Nat := [27613842763602037578810760296880676302515348897138433969978218185828617320615774777040577014830809843021138002000000000000, 27620566056175386257716073891468438455958742788260225408526491245878344021655952157166400000000000000000000000000000000000, 27629621895791455052975290966845849150403216990008182847405787129212680605600000000000000000000000000000000000000000000000, 27637932904984806873236743392898024851414787348579141891199333049000000000000000000000000000000000000000000000000000000000, 27645311509177384969463618854631258703150483090304378063689894000000000000000000000000000000000000000000000000000000000000, 27651986000421125571783862707354451565723312664555942469038000000000000000000000000000000000000000000000000000000000000000, 27658159681291740143822408140301946950310604509785152516000000000000000000000000000000000000000000000000000000000000000000, 27663969694241369072850094455426705911500196565239773400000000000000000000000000000000000000000000000000000000000000000000, 27669505344860775618272944294587386699040491604145330000000000000000000000000000000000000000000000000000000000000000000000, 27674826206135189310261867179903597694487128617430400000000000000000000000000000000000000000000000000000000000000000000000, 27679973639304842586844515613940746715451974259354000000000000000000000000000000000000000000000000000000000000000000000000, 27684977539619492961295480888688845842304404231240000000000000000000000000000000000000000000000000000000000000000000000000, 27689860284369097933141736285508715678132323937400000000000000000000000000000000000000000000000000000000000000000000000000, 27694639113489062113459631587323513392412913223000000000000000000000000000000000000000000000000000000000000000000000000000, 27699327624823152405933883552177948463469537480000000000000000000000000000000000000000000000000000000000000000000000000000, 27703936752993549902610229754373707287694758000000000000000000000000000000000000000000000000000000000000000000000000000000, 27708475435289338385571769481558637742077902400000000000000000000000000000000000000000000000000000000000000000000000000000, 27712951079432517189977120816975826471260821400000000000000000000000000000000000000000000000000000000000000000000000000000, 27717369901298279775340304167270928573438548000000000000000000000000000000000000000000000000000000000000000000000000000000, 27721737174206278047161062450496882403185467000000000000000000000000000000000000000000000000000000000000000000000000000000, 27726057416353315686835070468029332547573112000000000000000000000000000000000000000000000000000000000000000000000000000000, 27730334534056461908928077692867886256419268000000000000000000000000000000000000000000000000000000000000000000000000000000, 27734571932584902435126290007576811721225995000000000000000000000000000000000000000000000000000000000000000000000000000000, 27738772603000426341857027586757191526897595000000000000000000000000000000000000000000000000000000000000000000000000000000, 27742939190952785080656515016057051241829258000000000000000000000000000000000000000000000000000000000000000000000000000000, 27747074051576320926011619672507946908489873000000000000000000000000000000000000000000000000000000000000000000000000000000, 27751179293890914946429302023855380597732172000000000000000000000000000000000000000000000000000000000000000000000000000000, 27755256816751775448954854312009202250616396000000000000000000000000000000000000000000000000000000000000000000000000000000, 27759308338391947882506439722974452051310475000000000000000000000000000000000000000000000000000000000000000000000000000000, 27763335420779166931561852713013162076857889000000000000000000000000000000000000000000000000000000000000000000000000000000, 27767339489851098893993668820581781240445730000000000000000000000000000000000000000000000000000000000000000000000000000000, 27771321852443343810310279795602175593741760000000000000000000000000000000000000000000000000000000000000000000000000000000, 27775283710488436628239891874649270871605947000000000000000000000000000000000000000000000000000000000000000000000000000000, 27779226173105584616043380998950114724867440000000000000000000000000000000000000000000000000000000000000000000000000000000, 27783150266862243841347573392727552194681443000000000000000000000000000000000000000000000000000000000000000000000000000000, 27787056944547138019322164295375331332307994000000000000000000000000000000000000000000000000000000000000000000000000000000, 27790947092717277447064565487255204537451065000000000000000000000000000000000000000000000000000000000000000000000000000000, 27794821538291508476528963795376345627924481000000000000000000000000000000000000000000000000000000000000000000000000000000, 27798681054201138182632551473311170885609842000000000000000000000000000000000000000000000000000000000000000000000000000000, 27802526364341032744225003561380173809791421000000000000000000000000000000000000000000000000000000000000000000000000000000]
noncomputable def wM : List Nat :=
  wM0 ++ wM1 ++ wM2 ++ wM3 ++ wM4 ++ wM5 ++ wM6 ++ wM7 ++ wM8 ++ wM9 ++ wM10 ++ wM11 ++ wM12 ++ wM13 ++ wM14 ++ wM15 ++ wM16 ++ wM17 ++ wM18 ++ wM19
noncomputable def accH0 : List Nat := [0, 0, 0, 0, 0, 0, 0, 0, 0, 0, 0, 0, 0, 0, 0, 0, 0, 0, 0, 0, 0, 0, 0, 0, 0, 0, 0, 0, 0, 0, 0, 0, 0, 0, 0, 0, 0, 0, 0, 0]
noncomputable def wH0 : List Nat := [100000000000, 2304008016030, 6512024048090, 10720040080160, 14928056112230, 19136072144330, 23344088176400, 27552104208400, 31760120240500, 35968136272600, 40176152304600, 44384168336700, 48592184368800, 52800200400800, 57008216432800, 61216232464900, 65424248497000, 69632264529000, 73840280561100, 78048296593200, 82256312625200, 86464328657300, 90672344689400, 94880360721400, 99088376753500]
noncomputable def accH1 : List Nat := [6184224072460615178269265600000000000000000000000000000000000000000000000000000000000000000000000000000000, 6225453724957620806473372770000000000000000000000000000000000000000000000000000000000000000000000000000000, 6229687928206438911291069570000000000000000000000000000000000000000000000000000000000000000000000000000000, 6227035470933615806505838250000000000000000000000000000000000000000000000000000000000000000000000000000000, 6223722501376287301557980170000000000000000000000000000000000000000000000000000000000000000000000000000000, 6220765084414682053328936540000000000000000000000000000000000000000000000000000000000000000000000000000000, 6218203660536727994859971290000000000000000000000000000000000000000000000000000000000000000000000000000000, 6215939045871573961820717730000000000000000000000000000000000000000000000000000000000000000000000000000000, 6213882544650945303274577850000000000000000000000000000000000000000000000000000000000000000000000000000000, 6211972463749556247664359320000000000000000000000000000000000000000000000000000000000000000000000000000000, 6210168095624411843107329290000000000000000000000000000000000000000000000000000000000000000000000000000000, 6208442598345723615115620900000000000000000000000000000000000000000000000000000000000000000000000000000000, 6206777948328208192389768780000000000000000000000000000000000000000000000000000000000000000000000000000000, 6205161729943130497382128320000000000000000000000000000000000000000000000000000000000000000000000000000000, 6203585147050441675763018220000000000000000000000000000000000000000000000000000000000000000000000000000000, 6202041789314945894998263260000000000000000000000000000000000000000000000000000000000000000000000000000000, 6200526856404806399038623050000000000000000000000000000000000000000000000000000000000000000000000000000000, 6199036660969147105423883370000000000000000000000000000000000000000000000000000000000000000000000000000000, 6197568303552326262559415420000000000000000000000000000000000000000000000000000000000000000000000000000000, 6196119455343661014179788230000000000000000000000000000000000000000000000000000000000000000000000000000000, 6194688209914122953975173260000000000000000000000000000000000000000000000000000000000000000000000000000000, 6193272979898108710665557770000000000000000000000000000000000000000000000000000000000000000000000000000000, 6191872423577280578710906940000000000000000000000000000000000000000000000000000000000000000000000000000000, 6190485391721721879822552680000000000000000000000000000000000000000000000000000000000000000000000000000000, 6189110888397546805804450550000000000000000000000000000000000000000000000000000000000000000000000000000000, 6187748041580581856433925030000000000000000000000000000000000000000000000000000000000000000000000000000000, 6186396080797890796483171980000000000000000000000000000000000000000000000000000000000000000000000000000000, 6185054319820118253721439800000000000000000000000000000000000000000000000000000000000000000000000000000000, 6183722143116978932993557890000000000000000000000000000000000000000000000000000000000000000000000000000000, 6182398995100015034606448470000000000000000000000000000000000000000000000000000000000000000000000000000000, 6181084371478097543276812990000000000000000000000000000000000000000000000000000000000000000000000000000000, 6179777812243616112780867130000000000000000000000000000000000000000000000000000000000000000000000000000000, 6178478895903387612643122900000000000000000000000000000000000000000000000000000000000000000000000000000000, 6177187234699293019371548800000000000000000000000000000000000000000000000000000000000000000000000000000000, 6175902470621772294644041770000000000000000000000000000000000000000000000000000000000000000000000000000000, 6174624272049894968213944150000000000000000000000000000000000000000000000000000000000000000000000000000000, 6173352330880521414464521040000000000000000000000000000000000000000000000000000000000000000000000000000000, 6172086360080891642608478530000000000000000000000000000000000000000000000000000000000000000000000000000000, 6170826091597612210801116250000000000000000000000000000000000000000000000000000000000000000000000000000000, 6169571274514172846337483150000000000000000000000000000000000000000000000000000000000000000000000000000000]
noncomputable def wH1 : List Nat := [103296392785600, 107504408817600, 111712424849700, 115920440881800, 120128456913800, 124336472945900, 128544488978000, 132752505010000, 136960521042100, 141168537074200, 145376553106200, 149584569138300, 153792585170400, 158000601202400, 162208617234500, 166416633266600, 170624649298600, 174832665330600, 179040681362700, 183248697394800, 187456713426800, 191664729458900, 195872745491000, 200080761523500, 204288777556000]
noncomputable def accH2 : List Nat := [37719216619460494408564400600000000000000000000000000000000000000000000000000000000000000000000000000000000, 37749490473923536132550914770000000000000000000000000000000000000000000000000000000000000000000000000000000, 37747265035369184773555174570000000000000000000000000000000000000000000000000000000000000000000000000000000, 37738521817830806115102225250000000000000000000000000000000000000000000000000000000000000000000000000000000, 37728864728908814165281122170000000000000000000000000000000000000000000000000000000000000000000000000000000, 37719338573363764164974078540000000000000000000000000000000000000000000000000000000000000000000000000000000, 37710094613158796135175712290000000000000000000000000000000000000000000000000000000000000000000000000000000, 37701123967132149241909095730000000000000000000000000000000000000000000000000000000000000000000000000000000, 37692397322882657588553762850000000000000000000000000000000000000000000000000000000000000000000000000000000, 37683888195237158927251779320000000000000000000000000000000000000000000000000000000000000000000000000000000, 37675574808992090706725456290000000000000000000000000000000000000000000000000000000000000000000000000000000, 37667438985691169704479926900000000000000000000000000000000000000000000000000000000000000000000000000000000, 37659465140680065642284433780000000000000000000000000000000000000000000000000000000000000000000000000000000, 37651639655801654189451085320000000000000000000000000000000000000000000000000000000000000000000000000000000, 37643950495569030985161623220000000000000000000000000000000000000000000000000000000000000000000000000000000, 37636386952727486084750549260000000000000000000000000000000000000000000000000000000000000000000000000000000, 37628939461276358014640236050000000000000000000000000000000000000000000000000000000000000000000000000000000, 37621599447526430054960031370000000000000000000000000000000000000000000000000000000000000000000000000000000, 37614359205647922027165930420000000000000000000000000000000000000000000000000000000000000000000000000000000, 37607211791160074301435024230000000000000000000000000000000000000000000000000000000000000000000000000000000, 37600150928974570555723389260000000000000000000000000000000000000000000000000000000000000000000000000000000, 37593170933633661990107980770000000000000000000000000000000000000000000000000000000000000000000000000000000, 37586266640137002019622367940000000000000000000000000000000000000000000000000000000000000000000000000000000, 37579433343820702182859074680000000000000000000000000000000000000000000000000000000000000000000000000000000, 37572666748127283894624861550000000000000000000000000000000000000000000000000000000000000000000000000000000, 37565962919156902284616203030000000000000000000000000000000000000000000000000000000000000000000000000000000, 37559318246095672376878398980000000000000000000000000000000000000000000000000000000000000000000000000000000, 37552729406623546439303486800000000000000000000000000000000000000000000000000000000000000000000000000000000, 37546193336737365510326936890000000000000000000000000000000000000000000000000000000000000000000000000000000, 37539707204238134626926827470000000000000000000000000000000000000000000000000000000000000000000000000000000, 37533268385545370223785782990000000000000000000000000000000000000000000000000000000000000000000000000000000, 37526874445214940210319786130000000000000000000000000000000000000000000000000000000000000000000000000000000, 37520523117932107711750494900000000000000000000000000000000000000000000000000000000000000000000000000000000, 37514212292546073236888818800000000000000000000000000000000000000000000000000000000000000000000000000000000, 37507939997988166023250900770000000000000000000000000000000000000000000000000000000000000000000000000000000, 37501704390750305519759288150000000000000000000000000000000000000000000000000000000000000000000000000000000, 37495503743686250655277838040000000000000000000000000000000000000000000000000000000000000000000000000000000, 37489336436124105759068540530000000000000000000000000000000000000000000000000000000000000000000000000000000, 37483200944944121001955790250000000000000000000000000000000000000000000000000000000000000000000000000000000, 37477095836631361467422758150000000000000000000000000000000000000000000000000000000000000000000000000000000]
noncomputable def wH2 : List Nat := [208496793588000, 212704809620000, 216912825652000, 221120841684000, 225328857716000, 229536873748000, 233744889780000, 237952905812000, 242160921844000, 246368937876000, 250576953908000, 254784969940000, 258992985972000, 263201002004000, 267409018036000, 271617034068000, 275825050100000, 280033066132000, 284241082164000, 288449098196000, 292657114228000, 296865130260000, 301073146292000, 305281162324000, 309489178356000]
noncomputable def accH3 : List Nat := [108766367761967373011583840600000000000000000000000000000000000000000000000000000000000000000000000000000000, 108768522722984154671120274770000000000000000000000000000000000000000000000000000000000000000000000000000000, 108748888722887811713422974570000000000000000000000000000000000000000000000000000000000000000000000000000000, 108723677208011260326347865250000000000000000000000000000000000000000000000000000000000000000000000000000000, 108697032645197161857282322170000000000000000000000000000000000000000000000000000000000000000000000000000000, 108670049654213256615551278540000000000000000000000000000000000000000000000000000000000000000000000000000000, 108643122231734763682017232290000000000000000000000000000000000000000000000000000000000000000000000000000000, 108616440825537749509893095730000000000000000000000000000000000000000000000000000000000000000000000000000000, 108590106995782197213613802850000000000000000000000000000000000000000000000000000000000000000000000000000000, 108564171218155180531814459320000000000000000000000000000000000000000000000000000000000000000000000000000000, 108538652316096420802421976290000000000000000000000000000000000000000000000000000000000000000000000000000000, 108513549786527821561909566900000000000000000000000000000000000000000000000000000000000000000000000000000000, 108488851868866290991206273780000000000000000000000000000000000000000000000000000000000000000000000000000000, 108464540717968891813264045320000000000000000000000000000000000000000000000000000000000000000000000000000000, 108440595623175712770607143220000000000000000000000000000000000000000000000000000000000000000000000000000000, 108416994949212298584835469260000000000000000000000000000000000000000000000000000000000000000000000000000000, 108393717267098847887430316050000000000000000000000000000000000000000000000000000000000000000000000000000000, 108370741980696884326089191370000000000000000000000000000000000000000000000000000000000000000000000000000000, 108348049644528236063810130420000000000000000000000000000000000000000000000000000000000000000000000000000000, 108325622098591338349434824230000000000000000000000000000000000000000000000000000000000000000000000000000000, 108303442493914837074312189260000000000000000000000000000000000000000000000000000000000000000000000000000000, 108281495257878859016704780770000000000000000000000000000000000000000000000000000000000000000000000000000000, 108259766026207694652861687940000000000000000000000000000000000000000000000000000000000000000000000000000000, 108238241559699144975438234680000000000000000000000000000000000000000000000000000000000000000000000000000000, 108216909656180671304263541550000000000000000000000000000000000000000000000000000000000000000000000000000000, 108195759062097411245253523030000000000000000000000000000000000000000000000000000000000000000000000000000000, 108174779388728782637400158980000000000000000000000000000000000000000000000000000000000000000000000000000000, 108153961034246366910281086800000000000000000000000000000000000000000000000000000000000000000000000000000000, 108133295110693341346224496890000000000000000000000000000000000000000000000000000000000000000000000000000000, 108112773379057201985657707470000000000000000000000000000000000000000000000000000000000000000000000000000000, 108092388189383215306828382990000000000000000000000000000000000000000000000000000000000000000000000000000000, 108072132427382432056336426130000000000000000000000000000000000000000000000000000000000000000000000000000000, 108051999465886100170564414900000000000000000000000000000000000000000000000000000000000000000000000000000000, 108031983121686233656885418800000000000000000000000000000000000000000000000000000000000000000000000000000000, 108012077616890353786472260770000000000000000000000000000000000000000000000000000000000000000000000000000000, 107992277543714122452748208150000000000000000000000000000000000000000000000000000000000000000000000000000000, 107972577833268731407855558040000000000000000000000000000000000000000000000000000000000000000000000000000000, 107952973727518701948642260530000000000000000000000000000000000000000000000000000000000000000000000000000000, 107933460753842976079267390250000000000000000000000000000000000000000000000000000000000000000000000000000000, 107914034702399312704540478150000000000000000000000000000000000000000000000000000000000000000000000000000000]
noncomputable def wH3 : List Nat := [313697194388000, 317905210420000, 322113226452000, 326321242485000, 330529258518000, 334737274550000, 338945290582000, 343153306614000, 347361322646000, 351569338678000, 355777354710000, 359985370742000, 364193386774000, 368401402806000, 372609418838000, 376817434870000, 381025450902000, 385233466934000, 389441482966000, 393649498998000, 397857515030000, 402065531062000, 406273547094000, 410481563126000, 414689579158000]
noncomputable def accH4 : List Nat := [225076897968791689584609440600000000000000000000000000000000000000000000000000000000000000000000000000000000, 225032853695319512017822774770000000000000000000000000000000000000000000000000000000000000000000000000000000, 224983274803384544026720174570000000000000000000000000000000000000000000000000000000000000000000000000000000, 224928785094724799899238065250000000000000000000000000000000000000000000000000000000000000000000000000000000, 224871413743812538914234322170000000000000000000000000000000000000000000000000000000000000000000000000000000, 224812502599409648612917578540000000000000000000000000000000000000000000000000000000000000000000000000000000, 224752936035976212130250832290000000000000000000000000000000000000000000000000000000000000000000000000000000, 224693286409951936218806195730000000000000000000000000000000000000000000000000000000000000000000000000000000, 224633907957410883550488902850000000000000000000000000000000000000000000000000000000000000000000000000000000, 224575007435860794429507459320000000000000000000000000000000000000000000000000000000000000000000000000000000, 224516695833057305165362376290000000000000000000000000000000000000000000000000000000000000000000000000000000, 224459024037252071561035966900000000000000000000000000000000000000000000000000000000000000000000000000000000, 224402006328439132127903373780000000000000000000000000000000000000000000000000000000000000000000000000000000, 224345635375359306024168845320000000000000000000000000000000000000000000000000000000000000000000000000000000, 224289891614951192531427943220000000000000000000000000000000000000000000000000000000000000000000000000000000, 224234749031809499072163369260000000000000000000000000000000000000000000000000000000000000000000000000000000, 224180178673133656296022916050000000000000000000000000000000000000000000000000000000000000000000000000000000, 224126150754093899447388591370000000000000000000000000000000000000000000000000000000000000000000000000000000, 224072635887303520870908430420000000000000000000000000000000000000000000000000000000000000000000000000000000, 224019605777805467211556324230000000000000000000000000000000000000000000000000000000000000000000000000000000, 223967033583756654294092689260000000000000000000000000000000000000000000000000000000000000000000000000000000, 223914894077679714642099680770000000000000000000000000000000000000000000000000000000000000000000000000000000, 223863163686036297944406487940000000000000000000000000000000000000000000000000000000000000000000000000000000, 223811820456442973324422834680000000000000000000000000000000000000000000000000000000000000000000000000000000, 223760843987281644782167641550000000000000000000000000000000000000000000000000000000000000000000000000000000, 223710215333264723425714923030000000000000000000000000000000000000000000000000000000000000000000000000000000, 223659916904569431177685558980000000000000000000000000000000000000000000000000000000000000000000000000000000, 223609932364215638160794186800000000000000000000000000000000000000000000000000000000000000000000000000000000, 223560246525902471994060596890000000000000000000000000000000000000000000000000000000000000000000000000000000, 223510845260052034165074307470000000000000000000000000000000000000000000000000000000000000000000000000000000, 223461715404664698703682182990000000000000000000000000000000000000000000000000000000000000000000000000000000, 223412844682327893307093526130000000000000000000000000000000000000000000000000000000000000000000000000000000, 223364221625919105407584414900000000000000000000000000000000000000000000000000000000000000000000000000000000, 223315835509111613177939118800000000000000000000000000000000000000000000000000000000000000000000000000000000, 223267676285225232235267260770000000000000000000000000000000000000000000000000000000000000000000000000000000, 223219734529757877035513008150000000000000000000000000000000000000000000000000000000000000000000000000000000, 223172001390004085119931758040000000000000000000000000000000000000000000000000000000000000000000000000000000, 223124468538780064175815960530000000000000000000000000000000000000000000000000000000000000000000000000000000, 223077128132232489010713790250000000000000000000000000000000000000000000000000000000000000000000000000000000, 223029972772121033918103378150000000000000000000000000000000000000000000000000000000000000000000000000000000]
noncomputable def wH4 : List Nat := [418897595190000, 423105611222000, 427313627254000, 431521643286000, 435729659318000, 439937675350000, 444145691382000, 448353707414000, 452561723446000, 456769739478000, 460977755511000, 465185771544000, 469393787576000, 473601803608000, 477809819640000, 482017835672000, 486225851704000, 490433867736000, 494641883768000, 498849899800000, 503057915832000, 507265931864000, 511473947896000, 515681963928000, 519889979960000]
noncomputable def accH5 : List Nat := [370578986845607318287051740600000000000000000000000000000000000000000000000000000000000000000000000000000000, 370511608082099385716703574770000000000000000000000000000000000000000000000000000000000000000000000000000000, 370458278088038838345635974570000000000000000000000000000000000000000000000000000000000000000000000000000000, 370400320046483253755929665250000000000000000000000000000000000000000000000000000000000000000000000000000000, 370337254761058716118459422170000000000000000000000000000000000000000000000000000000000000000000000000000000, 370270818098651692838025878540000000000000000000000000000000000000000000000000000000000000000000000000000000, 370202554452627144309051032290000000000000000000000000000000000000000000000000000000000000000000000000000000, 370133540652562280622973695730000000000000000000000000000000000000000000000000000000000000000000000000000000, 370064464846351894125294202850000000000000000000000000000000000000000000000000000000000000000000000000000000, 369995743149185837058727759320000000000000000000000000000000000000000000000000000000000000000000000000000000, 369927613646812108172318176290000000000000000000000000000000000000000000000000000000000000000000000000000000, 369860201965849462642547966900000000000000000000000000000000000000000000000000000000000000000000000000000000, 369793564324672477893584473780000000000000000000000000000000000000000000000000000000000000000000000000000000, 369727714956343007106945945320000000000000000000000000000000000000000000000000000000000000000000000000000000, 369662643292671543888488243220000000000000000000000000000000000000000000000000000000000000000000000000000000, 369598324634707992610555069260000000000000000000000000000000000000000000000000000000000000000000000000000000, 369534726733762212696638716050000000000000000000000000000000000000000000000000000000000000000000000000000000, 369471813824973078285513791370000000000000000000000000000000000000000000000000000000000000000000000000000000, 369409549066251208712692130420000000000000000000000000000000000000000000000000000000000000000000000000000000, 369347895998699760680389524230000000000000000000000000000000000000000000000000000000000000000000000000000000, 369286819380979471834355089260000000000000000000000000000000000000000000000000000000000000000000000000000000, 369226285646183772491296880770000000000000000000000000000000000000000000000000000000000000000000000000000000, 369166263117856207648370087940000000000000000000000000000000000000000000000000000000000000000000000000000000, 369106722078810606186360934680000000000000000000000000000000000000000000000000000000000000000000000000000000, 369047634755215871762598441550000000000000000000000000000000000000000000000000000000000000000000000000000000, 368988975243328459651607123030000000000000000000000000000000000000000000000000000000000000000000000000000000, 368930719413381613758196558980000000000000000000000000000000000000000000000000000000000000000000000000000000, 368872844795795468672338486800000000000000000000000000000000000000000000000000000000000000000000000000000000, 368815330464760167883203996890000000000000000000000000000000000000000000000000000000000000000000000000000000, 368758156921931586243604007470000000000000000000000000000000000000000000000000000000000000000000000000000000, 368701305985885036739863082990000000000000000000000000000000000000000000000000000000000000000000000000000000, 368644760686510792699081526130000000000000000000000000000000000000000000000000000000000000000000000000000000, 368588505167299783876874414900000000000000000000000000000000000000000000000000000000000000000000000000000000, 368532524594368695258400918800000000000000000000000000000000000000000000000000000000000000000000000000000000, 368476805075152188992635260770000000000000000000000000000000000000000000000000000000000000000000000000000000, 368421333580934813622545608150000000000000000000000000000000000000000000000000000000000000000000000000000000, 368366097878854947650203758040000000000000000000000000000000000000000000000000000000000000000000000000000000, 368311086468365112048408960530000000000000000000000000000000000000000000000000000000000000000000000000000000, 368256288524751037615667290250000000000000000000000000000000000000000000000000000000000000000000000000000000, 368201693846755765518212778150000000000000000000000000000000000000000000000000000000000000000000000000000000]
noncomputable def wH5 : List Nat := [524097995992000, 528306012024000, 532514028056000, 536722044088000, 540930060120000, 545138076152000, 549346092184000, 553554108216000, 557762124248000, 561970140280000, 566178156312000, 570386172344000, 574594188376000, 578802204408000, 583010220440000, 587218236472000, 591426252505000, 595634268538000, 599842284570000, 604050300602000, 608258316634000, 612466332666000, 616674348698000, 620882364730000, 625090380762000]
noncomputable def accH6 : List Nat := [549840558185231412788185140600000000000000000000000000000000000000000000000000000000000000000000000000000000, 549725908535918255745738574770000000000000000000000000000000000000000000000000000000000000000000000000000000, 549650735793974696220261374570000000000000000000000000000000000000000000000000000000000000000000000000000000, 549572222967917992894184365250000000000000000000000000000000000000000000000000000000000000000000000000000000, 549486538958559003015113522170000000000000000000000000000000000000000000000000000000000000000000000000000000, 549395740250553569507161378540000000000000000000000000000000000000000000000000000000000000000000000000000000, 549302091366773374672670532290000000000000000000000000000000000000000000000000000000000000000000000000000000, 549207236589037745382189495730000000000000000000000000000000000000000000000000000000000000000000000000000000, 549112239877036706957684102850000000000000000000000000000000000000000000000000000000000000000000000000000000, 549017748446789658524708559320000000000000000000000000000000000000000000000000000000000000000000000000000000, 548924134760033544084243276290000000000000000000000000000000000000000000000000000000000000000000000000000000, 548831597267269715936335966900000000000000000000000000000000000000000000000000000000000000000000000000000000, 548740226850359511659711673780000000000000000000000000000000000000000000000000000000000000000000000000000000, 548650049194813639964234845320000000000000000000000000000000000000000000000000000000000000000000000000000000, 548561051352883649965928343220000000000000000000000000000000000000000000000000000000000000000000000000000000, 548473198245206693832991369260000000000000000000000000000000000000000000000000000000000000000000000000000000, 548386442846854575438734816050000000000000000000000000000000000000000000000000000000000000000000000000000000, 548300732438636585997372491370000000000000000000000000000000000000000000000000000000000000000000000000000000, 548216012399687773984173430420000000000000000000000000000000000000000000000000000000000000000000000000000000, 548132228482860108367444624230000000000000000000000000000000000000000000000000000000000000000000000000000000, 548049328124628965311542389260000000000000000000000000000000000000000000000000000000000000000000000000000000, 547967261172759772028507180770000000000000000000000000000000000000000000000000000000000000000000000000000000, 547885980236065877344641287940000000000000000000000000000000000000000000000000000000000000000000000000000000, 547805440808657452005884434680000000000000000000000000000000000000000000000000000000000000000000000000000000, 547725601258463558869315741550000000000000000000000000000000000000000000000000000000000000000000000000000000, 547646422729843926677672723030000000000000000000000000000000000000000000000000000000000000000000000000000000, 547567869005647318956208358980000000000000000000000000000000000000000000000000000000000000000000000000000000, 547489906342278284484405186800000000000000000000000000000000000000000000000000000000000000000000000000000000, 547412503300026304688370896890000000000000000000000000000000000000000000000000000000000000000000000000000000, 547335630571532804962999007470000000000000000000000000000000000000000000000000000000000000000000000000000000, 547259260818086182183329382990000000000000000000000000000000000000000000000000000000000000000000000000000000, 547183368513650744687365226130000000000000000000000000000000000000000000000000000000000000000000000000000000, 547107929800179107862813814900000000000000000000000000000000000000000000000000000000000000000000000000000000, 547032922351207171124472418800000000000000000000000000000000000000000000000000000000000000000000000000000000, 546958325250686796040887860770000000000000000000000000000000000000000000000000000000000000000000000000000000, 546884118879496821576561908150000000000000000000000000000000000000000000000000000000000000000000000000000000, 546810284810685453248247258040000000000000000000000000000000000000000000000000000000000000000000000000000000, 546736805717813983752806160530000000000000000000000000000000000000000000000000000000000000000000000000000000, 546663665288252897215980390250000000000000000000000000000000000000000000000000000000000000000000000000000000, 546590848144845483662269978150000000000000000000000000000000000000000000000000000000000000000000000000000000]
noncomputable def wH6 : List Nat := [629298396794000, 633506412826000, 637714428858000, 641922444890000, 646130460922000, 650338476954000, 654546492986000, 658754509018000, 662962525050000, 667170541082000, 671378557114000, 675586573146000, 679794589178000, 684002605210000, 688210621242000, 692418637274000, 696626653306000, 700834669338000, 705042685370000, 709250701402000, 713458717434000, 717666733466000, 721874749499000, 726082765532000, 730290781564000]
noncomputable def accH7 : List Nat := [770010294605245409295761140600000000000000000000000000000000000000000000000000000000000000000000000000000000, 769826246101850242597684874770000000000000000000000000000000000000000000000000000000000000000000000000000000, 769713047100239084101228674570000000000000000000000000000000000000000000000000000000000000000000000000000000, 769598143356471962766990165250000000000000000000000000000000000000000000000000000000000000000000000000000000, 769473555388224200874593922170000000000000000000000000000000000000000000000000000000000000000000000000000000, 769341728296291452640124978540000000000000000000000000000000000000000000000000000000000000000000000000000000, 769205815362943831329727232290000000000000000000000000000000000000000000000000000000000000000000000000000000, 769068163055980801716064595730000000000000000000000000000000000000000000000000000000000000000000000000000000, 768930300341685292507537702850000000000000000000000000000000000000000000000000000000000000000000000000000000, 768793159720873214251753159320000000000000000000000000000000000000000000000000000000000000000000000000000000, 768657278699555745484069876290000000000000000000000000000000000000000000000000000000000000000000000000000000, 768522944288653111071432766900000000000000000000000000000000000000000000000000000000000000000000000000000000, 768390288575222500147558673780000000000000000000000000000000000000000000000000000000000000000000000000000000, 768259349706179472963383245320000000000000000000000000000000000000000000000000000000000000000000000000000000, 768130110117389487233724843220000000000000000000000000000000000000000000000000000000000000000000000000000000, 768002520282855992986162569260000000000000000000000000000000000000000000000000000000000000000000000000000000, 767876513378644413196986616050000000000000000000000000000000000000000000000000000000000000000000000000000000, 767752014287491942933419291370000000000000000000000000000000000000000000000000000000000000000000000000000000, 767628945070208183081026330420000000000000000000000000000000000000000000000000000000000000000000000000000000, 767507228252591777042420124230000000000000000000000000000000000000000000000000000000000000000000000000000000, 767386788725382731989241989260000000000000000000000000000000000000000000000000000000000000000000000000000000, 767267554801971530970239780770000000000000000000000000000000000000000000000000000000000000000000000000000000, 767149458732219922756368687940000000000000000000000000000000000000000000000000000000000000000000000000000000, 767032436890110962827513034680000000000000000000000000000000000000000000000000000000000000000000000000000000, 766916429762216600157175741550000000000000000000000000000000000000000000000000000000000000000000000000000000, 766801381813199048842715923030000000000000000000000000000000000000000000000000000000000000000000000000000000, 766687241289824678324863958980000000000000000000000000000000000000000000000000000000000000000000000000000000, 766573959986146998488709086800000000000000000000000000000000000000000000000000000000000000000000000000000000, 766461492999420752426853896890000000000000000000000000000000000000000000000000000000000000000000000000000000, 766349798486245285897862407470000000000000000000000000000000000000000000000000000000000000000000000000000000, 766238837425237590428820782990000000000000000000000000000000000000000000000000000000000000000000000000000000, 766128573394616887827227326130000000000000000000000000000000000000000000000000000000000000000000000000000000, 766018972361621785988189614900000000000000000000000000000000000000000000000000000000000000000000000000000000, 765910002488902089198476918800000000000000000000000000000000000000000000000000000000000000000000000000000000, 765801633958298023377420660770000000000000000000000000000000000000000000000000000000000000000000000000000000, 765693838808176854425345208150000000000000000000000000000000000000000000000000000000000000000000000000000000, 765586590782022392490093258040000000000000000000000000000000000000000000000000000000000000000000000000000000, 765479865197846721111930760530000000000000000000000000000000000000000000000000000000000000000000000000000000, 765373638821923288386151190250000000000000000000000000000000000000000000000000000000000000000000000000000000, 765267889757636220450999578150000000000000000000000000000000000000000000000000000000000000000000000000000000]
noncomputable def wH7 : List Nat := [734498797596000, 738706813628000, 742914829660000, 747122845692000, 751330861724000, 755538877756000, 759746893788000, 763954909820000, 768162925852000, 772370941884000, 776578957916000, 780786973948000, 784994989980000, 789203006012000, 793411022044000, 797619038076000, 801827054108000, 806035070140000, 810243086172000, 814451102204000, 818659118236000, 822867134268000, 827075150300000, 831283166332000, 835491182364000]
noncomputable def accH8 : List Nat := [1029366025996556917295725940600000000000000000000000000000000000000000000000000000000000000000000000000000000, 1029106578954610259386707674770000000000000000000000000000000000000000000000000000000000000000000000000000000, 1028953757069090674025446274570000000000000000000000000000000000000000000000000000000000000000000000000000000, 1028800353078497337520956965250000000000000000000000000000000000000000000000000000000000000000000000000000000, 1028633753922037683154805122170000000000000000000000000000000000000000000000000000000000000000000000000000000, 1028457024228133679324994178540000000000000000000000000000000000000000000000000000000000000000000000000000000, 1028274458325014310206158032290000000000000000000000000000000000000000000000000000000000000000000000000000000, 1028089285091359203567492995730000000000000000000000000000000000000000000000000000000000000000000000000000000, 1027903616507124240592834502850000000000000000000000000000000000000000000000000000000000000000000000000000000, 1027718745968072491364285159320000000000000000000000000000000000000000000000000000000000000000000000000000000, 1027535424268435574863775076290000000000000000000000000000000000000000000000000000000000000000000000000000000, 1027354057729698472270725166900000000000000000000000000000000000000000000000000000000000000000000000000000000, 1027174839184447938146314273780000000000000000000000000000000000000000000000000000000000000000000000000000000, 1026997831569742779109187645320000000000000000000000000000000000000000000000000000000000000000000000000000000, 1026823020395702286014757243220000000000000000000000000000000000000000000000000000000000000000000000000000000, 1026650346407772858764569769260000000000000000000000000000000000000000000000000000000000000000000000000000000, 1026479725820068435579847816050000000000000000000000000000000000000000000000000000000000000000000000000000000, 1026311062781460947033654491370000000000000000000000000000000000000000000000000000000000000000000000000000000, 1026144256989140894688193130420000000000000000000000000000000000000000000000000000000000000000000000000000000, 1025979208281163936831601324230000000000000000000000000000000000000000000000000000000000000000000000000000000, 1025815819314794024158773189260000000000000000000000000000000000000000000000000000000000000000000000000000000, 1025653997069246061378400980770000000000000000000000000000000000000000000000000000000000000000000000000000000, 1025493653588642488220359487940000000000000000000000000000000000000000000000000000000000000000000000000000000, 1025334706275005060863267034680000000000000000000000000000000000000000000000000000000000000000000000000000000, 1025177077892000506514724141550000000000000000000000000000000000000000000000000000000000000000000000000000000, 1025020696402439697185801923030000000000000000000000000000000000000000000000000000000000000000000000000000000, 1024865494715426854519740758980000000000000000000000000000000000000000000000000000000000000000000000000000000, 1024711410378240204492107086800000000000000000000000000000000000000000000000000000000000000000000000000000000, 1024558385255028904061696296890000000000000000000000000000000000000000000000000000000000000000000000000000000, 1024406365204696949346393607470000000000000000000000000000000000000000000000000000000000000000000000000000000, 1024255299767308971431126782990000000000000000000000000000000000000000000000000000000000000000000000000000000, 1024105141868685426070119726130000000000000000000000000000000000000000000000000000000000000000000000000000000, 1023955847543799406828746014900000000000000000000000000000000000000000000000000000000000000000000000000000000, 1023807375681610190517830518800000000000000000000000000000000000000000000000000000000000000000000000000000000, 1023659687791399835640951060770000000000000000000000000000000000000000000000000000000000000000000000000000000, 1023512747791359658257893208150000000000000000000000000000000000000000000000000000000000000000000000000000000, 1023366521807676539698060458040000000000000000000000000000000000000000000000000000000000000000000000000000000, 1023220978005285601256476360530000000000000000000000000000000000000000000000000000000000000000000000000000000, 1023076086421850718342355590250000000000000000000000000000000000000000000000000000000000000000000000000000000, 1022931818824343536652393578150000000000000000000000000000000000000000000000000000000000000000000000000000000]
noncomputable def wH8 : List Nat := [839699198396000, 843907214428000, 848115230460000, 852323246493000, 856531262526000, 860739278558000, 864947294590000, 869155310622000, 873363326654000, 877571342686000, 881779358718000, 885987374750000, 890195390782000, 894403406814000, 898611422846000, 902819438878000, 907027454910000, 911235470942000, 915443486974000, 919651503006000, 923859519038000, 928067535070000, 932275551102000, 936483567134000, 940691583166000]
noncomputable def accH9 : List Nat := [1321035372200160099392463040600000000000000000000000000000000000000000000000000000000000000000000000000000000, 1320708933043610846616741874770000000000000000000000000000000000000000000000000000000000000000000000000000000, 1320528321758696754321212274570000000000000000000000000000000000000000000000000000000000000000000000000000000, 1320347702527574307300300165250000000000000000000000000000000000000000000000000000000000000000000000000000000, 1320149474525723334964343922170000000000000000000000000000000000000000000000000000000000000000000000000000000, 1319937514973669264790893878540000000000000000000000000000000000000000000000000000000000000000000000000000000, 1319717451522599112452223632290000000000000000000000000000000000000000000000000000000000000000000000000000000, 1319493527437472443091232695730000000000000000000000000000000000000000000000000000000000000000000000000000000, 1319268523786762227028225802850000000000000000000000000000000000000000000000000000000000000000000000000000000, 1319044152103634106162872359320000000000000000000000000000000000000000000000000000000000000000000000000000000, 1318821416194845081566050376290000000000000000000000000000000000000000000000000000000000000000000000000000000, 1318600870641303847930463766900000000000000000000000000000000000000000000000000000000000000000000000000000000, 1318382791125679407146639573780000000000000000000000000000000000000000000000000000000000000000000000000000000, 1318167282929467866722523345320000000000000000000000000000000000000000000000000000000000000000000000000000000, 1317954348996697218238085643220000000000000000000000000000000000000000000000000000000000000000000000000000000, 1317743932335725137126356769260000000000000000000000000000000000000000000000000000000000000000000000000000000, 1317535942339553045414981516050000000000000000000000000000000000000000000000000000000000000000000000000000000, 1317330271065817537823189891370000000000000000000000000000000000000000000000000000000000000000000000000000000, 1317126803239574883425573130420000000000000000000000000000000000000000000000000000000000000000000000000000000, 1316925422347555025838044124230000000000000000000000000000000000000000000000000000000000000000000000000000000, 1316726014248570973167362689260000000000000000000000000000000000000000000000000000000000000000000000000000000, 1316528469249245346131305280770000000000000000000000000000000000000000000000000000000000000000000000000000000, 1316332683193646305178336787940000000000000000000000000000000000000000000000000000000000000000000000000000000, 1316138557951923008328031334680000000000000000000000000000000000000000000000000000000000000000000000000000000, 1315946001527586420120066141550000000000000000000000000000000000000000000000000000000000000000000000000000000, 1315754927937184770839619923030000000000000000000000000000000000000000000000000000000000000000000000000000000, 1315565256963040944231844058980000000000000000000000000000000000000000000000000000000000000000000000000000000, 1315376913825364021701012386800000000000000000000000000000000000000000000000000000000000000000000000000000000, 1315189828828560309602700896890000000000000000000000000000000000000000000000000000000000000000000000000000000, 1315003936998575635395593907470000000000000000000000000000000000000000000000000000000000000000000000000000000, 1314819177727160355733996782990000000000000000000000000000000000000000000000000000000000000000000000000000000, 1314635494429390653264270126130000000000000000000000000000000000000000000000000000000000000000000000000000000, 1314452834223586513754650114900000000000000000000000000000000000000000000000000000000000000000000000000000000, 1314271147635228264475436218800000000000000000000000000000000000000000000000000000000000000000000000000000000, 1314090388320366357936864360770000000000000000000000000000000000000000000000000000000000000000000000000000000, 1313910512818191123363778108150000000000000000000000000000000000000000000000000000000000000000000000000000000, 1313731480315292196152520258040000000000000000000000000000000000000000000000000000000000000000000000000000000, 1313553252443164824330454960530000000000000000000000000000000000000000000000000000000000000000000000000000000, 1313375793082276411161448190250000000000000000000000000000000000000000000000000000000000000000000000000000000, 1313199068192204624204922678150000000000000000000000000000000000000000000000000000000000000000000000000000000]
noncomputable def wH9 : List Nat := [944899599198000, 949107615230000, 953315631262000, 957523647294000, 961731663326000, 965939679358000, 970147695390000, 974355711422000, 978563727454000, 982771743487000, 986979759520000, 991187775552000, 995395791584000, 999603807616000, 1003811823648000, 1008019839680000, 1012227855712000, 1016435871744000, 1020643887776000, 1024851903808000, 1029059919840000, 1033267935872000, 1037475951904000, 1041683967936000, 1045891983968000]
noncomputable def accH10 : List Nat := [1640946381591270798676464140600000000000000000000000000000000000000000000000000000000000000000000000000000000, 1640553194178399853958246574770000000000000000000000000000000000000000000000000000000000000000000000000000000, 1640348449367763888504655774570000000000000000000000000000000000000000000000000000000000000000000000000000000, 1640144072288858798737030365250000000000000000000000000000000000000000000000000000000000000000000000000000000, 1639917074375189415495299122170000000000000000000000000000000000000000000000000000000000000000000000000000000, 1639672272619663698867881478540000000000000000000000000000000000000000000000000000000000000000000000000000000, 1639416782137765716443464032290000000000000000000000000000000000000000000000000000000000000000000000000000000, 1639155972195728211207635895730000000000000000000000000000000000000000000000000000000000000000000000000000000, 1638893366634997611454590502850000000000000000000000000000000000000000000000000000000000000000000000000000000, 1638631143125445858359032659320000000000000000000000000000000000000000000000000000000000000000000000000000000, 1638370590083588054897924676290000000000000000000000000000000000000000000000000000000000000000000000000000000, 1638112431511988833813302466900000000000000000000000000000000000000000000000000000000000000000000000000000000, 1637857040356032658486263773780000000000000000000000000000000000000000000000000000000000000000000000000000000, 1637604574192319375627253745320000000000000000000000000000000000000000000000000000000000000000000000000000000, 1637355060330111266958474343220000000000000000000000000000000000000000000000000000000000000000000000000000000, 1637108448887140357192150769260000000000000000000000000000000000000000000000000000000000000000000000000000000, 1636864645815709354327717916050000000000000000000000000000000000000000000000000000000000000000000000000000000, 1636623533421807074286191991370000000000000000000000000000000000000000000000000000000000000000000000000000000, 1636384983049158605439879430420000000000000000000000000000000000000000000000000000000000000000000000000000000, 1636148862884245246113094124230000000000000000000000000000000000000000000000000000000000000000000000000000000, 1635915042645309855834365589260000000000000000000000000000000000000000000000000000000000000000000000000000000, 1635683396344652946683110880770000000000000000000000000000000000000000000000000000000000000000000000000000000, 1635453803798258727002520687940000000000000000000000000000000000000000000000000000000000000000000000000000000, 1635226151370758250823164834680000000000000000000000000000000000000000000000000000000000000000000000000000000, 1635000332227669540579529441550000000000000000000000000000000000000000000000000000000000000000000000000000000, 1634776246289052414531813723030000000000000000000000000000000000000000000000000000000000000000000000000000000, 1634553800010646024259959958980000000000000000000000000000000000000000000000000000000000000000000000000000000, 1634332906053381198562203786800000000000000000000000000000000000000000000000000000000000000000000000000000000, 1634113482907418821107971396890000000000000000000000000000000000000000000000000000000000000000000000000000000, 1633895454502041695627761507470000000000000000000000000000000000000000000000000000000000000000000000000000000, 1633678749809834369316274782990000000000000000000000000000000000000000000000000000000000000000000000000000000, 1633463302464589550731051626130000000000000000000000000000000000000000000000000000000000000000000000000000000, 1633249050399129260970384614900000000000000000000000000000000000000000000000000000000000000000000000000000000, 1633035935511507653997391018800000000000000000000000000000000000000000000000000000000000000000000000000000000, 1632823903347486658854838960770000000000000000000000000000000000000000000000000000000000000000000000000000000, 1632612902817025273704944108150000000000000000000000000000000000000000000000000000000000000000000000000000000, 1632402885923620571077844658040000000000000000000000000000000000000000000000000000000000000000000000000000000, 1632193807531188446074605960530000000000000000000000000000000000000000000000000000000000000000000000000000000, 1631985625135673713742239490250000000000000000000000000000000000000000000000000000000000000000000000000000000, 1631778298669611595908307278150000000000000000000000000000000000000000000000000000000000000000000000000000000]
noncomputable def wH10 : List Nat := [1050100000000000, 1054308016032000, 1058516032064000, 1062724048096000, 1066932064128000, 1071140080160000, 1075348096192000, 1079556112224000, 1083764128256000, 1087972144288000, 1092180160320000, 1096388176352000, 1100596192384000, 1104804208416000, 1109012224448000, 1113220240480000, 1117428256513000, 1121636272546000, 1125844288578000, 1130052304610000, 1134260320642000, 1138468336674000, 1142676352706000, 1146884368738000, 1151092384770000]
noncomputable def accH11 : List Nat := [1986373629147695414062226440600000000000000000000000000000000000000000000000000000000000000000000000000000000, 1985911029952656163035949574770000000000000000000000000000000000000000000000000000000000000000000000000000000, 1985682254796373035901700874570000000000000000000000000000000000000000000000000000000000000000000000000000000, 1985453833297812930988563965250000000000000000000000000000000000000000000000000000000000000000000000000000000, 1985197089330648644529133422170000000000000000000000000000000000000000000000000000000000000000000000000000000, 1984917927102489372755194478540000000000000000000000000000000000000000000000000000000000000000000000000000000, 1984625107674415861716941932290000000000000000000000000000000000000000000000000000000000000000000000000000000, 1984325241890238914158504295730000000000000000000000000000000000000000000000000000000000000000000000000000000, 1984022675532395254500611302850000000000000000000000000000000000000000000000000000000000000000000000000000000, 1983720106345923020911294459320000000000000000000000000000000000000000000000000000000000000000000000000000000, 1983419144389848657645666376290000000000000000000000000000000000000000000000000000000000000000000000000000000, 1983120708804069655928538366900000000000000000000000000000000000000000000000000000000000000000000000000000000, 1982825287890345079654181573780000000000000000000000000000000000000000000000000000000000000000000000000000000, 1982533104440671419316666345320000000000000000000000000000000000000000000000000000000000000000000000000000000, 1982244219512192387338046643220000000000000000000000000000000000000000000000000000000000000000000000000000000, 1981958597264589103400395769260000000000000000000000000000000000000000000000000000000000000000000000000000000, 1981676145436803068409739016050000000000000000000000000000000000000000000000000000000000000000000000000000000, 1981396740599393127767330891370000000000000000000000000000000000000000000000000000000000000000000000000000000, 1981120243865585942332000030420000000000000000000000000000000000000000000000000000000000000000000000000000000, 1980846510640834819447776124230000000000000000000000000000000000000000000000000000000000000000000000000000000, 1980575396553999696680977889260000000000000000000000000000000000000000000000000000000000000000000000000000000, 1980306761021822000822139880770000000000000000000000000000000000000000000000000000000000000000000000000000000, 1980040469262836823723115287940000000000000000000000000000000000000000000000000000000000000000000000000000000, 1979776393355148994486192234680000000000000000000000000000000000000000000000000000000000000000000000000000000, 1979514412680675168753768341550000000000000000000000000000000000000000000000000000000000000000000000000000000, 1979254413983233181941766923030000000000000000000000000000000000000000000000000000000000000000000000000000000, 1978996291201789695631462158980000000000000000000000000000000000000000000000000000000000000000000000000000000, 1978739945157862334413923686800000000000000000000000000000000000000000000000000000000000000000000000000000000, 1978485283173736225366563896890000000000000000000000000000000000000000000000000000000000000000000000000000000, 1978232218662246893844226907470000000000000000000000000000000000000000000000000000000000000000000000000000000, 1977980670702688420790137682990000000000000000000000000000000000000000000000000000000000000000000000000000000, 1977730563626870700915106926130000000000000000000000000000000000000000000000000000000000000000000000000000000, 1977481826620934687121938414900000000000000000000000000000000000000000000000000000000000000000000000000000000, 1977234393357726240368586918800000000000000000000000000000000000000000000000000000000000000000000000000000000, 1976988201644600887814849960770000000000000000000000000000000000000000000000000000000000000000000000000000000, 1976743193104733363655757108150000000000000000000000000000000000000000000000000000000000000000000000000000000, 1976499312877469361544395458040000000000000000000000000000000000000000000000000000000000000000000000000000000, 1976256509355148414698727160530000000000000000000000000000000000000000000000000000000000000000000000000000000, 1976014733926368686903864390250000000000000000000000000000000000000000000000000000000000000000000000000000000, 1975773940755978002553090278150000000000000000000000000000000000000000000000000000000000000000000000000000000]
noncomputable def wH11 : List Nat := [1155300400802000, 1159508416834000, 1163716432866000, 1167924448898000, 1172132464930000, 1176340480962000, 1180548496994000, 1184756513026000, 1188964529058000, 1193172545090000, 1197380561122000, 1201588577154000, 1205796593186000, 1210004609218000, 1214212625250000, 1218420641282000, 1222628657314000, 1226836673346000, 1231044689378000, 1235252705410000, 1239460721442000, 1243668737474000, 1247876753507000, 1252084769540000, 1256292785572000]
noncomputable def accH12 : List Nat := [2351848081744595680629677240600000000000000000000000000000000000000000000000000000000000000000000000000000000, 2351321123649327865584268674770000000000000000000000000000000000000000000000000000000000000000000000000000000, 2351074345642400068580229674570000000000000000000000000000000000000000000000000000000000000000000000000000000, 2350826823360285377987254565250000000000000000000000000000000000000000000000000000000000000000000000000000000, 2350544184683717213335226722170000000000000000000000000000000000000000000000000000000000000000000000000000000, 2350233666954386302019984478540000000000000000000000000000000000000000000000000000000000000000000000000000000, 2349905873159248878062625632290000000000000000000000000000000000000000000000000000000000000000000000000000000, 2349568788278820595192905695730000000000000000000000000000000000000000000000000000000000000000000000000000000, 2349227671142168291348327602850000000000000000000000000000000000000000000000000000000000000000000000000000000, 2348885805709590879162020259320000000000000000000000000000000000000000000000000000000000000000000000000000000, 2348545174277171129528819876290000000000000000000000000000000000000000000000000000000000000000000000000000000, 2348206931349863342436854966900000000000000000000000000000000000000000000000000000000000000000000000000000000, 2347871713417595796387745673780000000000000000000000000000000000000000000000000000000000000000000000000000000, 2347539835747011804687237445320000000000000000000000000000000000000000000000000000000000000000000000000000000, 2347211416049082765540125143220000000000000000000000000000000000000000000000000000000000000000000000000000000, 2346886451952742693252250969260000000000000000000000000000000000000000000000000000000000000000000000000000000, 2346564869582913524117139216050000000000000000000000000000000000000000000000000000000000000000000000000000000, 2346246554055580925738633791370000000000000000000000000000000000000000000000000000000000000000000000000000000, 2345931368623774369315396630420000000000000000000000000000000000000000000000000000000000000000000000000000000, 2345619166686710417602076724230000000000000000000000000000000000000000000000000000000000000000000000000000000, 2345309799233667629287460089260000000000000000000000000000000000000000000000000000000000000000000000000000000, 2345003119416389686252760880770000000000000000000000000000000000000000000000000000000000000000000000000000000, 2344698985242373658126057287940000000000000000000000000000000000000000000000000000000000000000000000000000000, 2344397261089307134010416134680000000000000000000000000000000000000000000000000000000000000000000000000000000, 2344097818456939350811595641550000000000000000000000000000000000000000000000000000000000000000000000000000000, 2343800536224524982663813323030000000000000000000000000000000000000000000000000000000000000000000000000000000, 2343505300619789008303514058980000000000000000000000000000000000000000000000000000000000000000000000000000000, 2343212004990001753845662086800000000000000000000000000000000000000000000000000000000000000000000000000000000, 2342920549469362166749257596890000000000000000000000000000000000000000000000000000000000000000000000000000000, 2342630840597037089644492307470000000000000000000000000000000000000000000000000000000000000000000000000000000, 2342342790905653615980366382990000000000000000000000000000000000000000000000000000000000000000000000000000000, 2342056318508665391590666726130000000000000000000000000000000000000000000000000000000000000000000000000000000, 2341771346695274159258653914900000000000000000000000000000000000000000000000000000000000000000000000000000000, 2341487803554472821646352818800000000000000000000000000000000000000000000000000000000000000000000000000000000, 2341205621609618798639640760770000000000000000000000000000000000000000000000000000000000000000000000000000000, 2340924737484605846518313108150000000000000000000000000000000000000000000000000000000000000000000000000000000, 2340645091589365536210571858040000000000000000000000000000000000000000000000000000000000000000000000000000000, 2340366627842608593359765460530000000000000000000000000000000000000000000000000000000000000000000000000000000, 2340089293399022256921855490250000000000000000000000000000000000000000000000000000000000000000000000000000000, 2339813038414238927182390278150000000000000000000000000000000000000000000000000000000000000000000000000000000]
noncomputable def wH12 : List Nat := [1260500801604000, 1264708817636000, 1268916833668000, 1273124849700000, 1277332865732000, 1281540881764000, 1285748897796000, 1289956913828000, 1294164929860000, 1298372945892000, 1302580961924000, 1306788977956000, 1310996993988000, 1315205010020000, 1319413026052000, 1323621042084000, 1327829058116000, 1332037074148000, 1336245090180000, 1340453106212000, 1344661122244000, 1348869138276000, 1353077154308000, 1357285170340000, 1361493186372000]
noncomputable def accH13 : List Nat := [2726152899337758419204079240600000000000000000000000000000000000000000000000000000000000000000000000000000000, 2725587952069877486755679074770000000000000000000000000000000000000000000000000000000000000000000000000000000, 2725346965261847360735791274570000000000000000000000000000000000000000000000000000000000000000000000000000000, 2725101517842698608132027765250000000000000000000000000000000000000000000000000000000000000000000000000000000, 2724812180768003922611808322170000000000000000000000000000000000000000000000000000000000000000000000000000000, 2724488037813989653798652078540000000000000000000000000000000000000000000000000000000000000000000000000000000, 2724141848927410753647290432290000000000000000000000000000000000000000000000000000000000000000000000000000000, 2723783166913683480253596895730000000000000000000000000000000000000000000000000000000000000000000000000000000, 2723418295536742919141487202850000000000000000000000000000000000000000000000000000000000000000000000000000000, 2723051204967286654613143859320000000000000000000000000000000000000000000000000000000000000000000000000000000, 2722684331068905537384918676290000000000000000000000000000000000000000000000000000000000000000000000000000000, 2722319132262293132354241366900000000000000000000000000000000000000000000000000000000000000000000000000000000, 2721956451957849565515828073780000000000000000000000000000000000000000000000000000000000000000000000000000000, 2721596748619407425804070645320000000000000000000000000000000000000000000000000000000000000000000000000000000, 2721240240642284125829645143220000000000000000000000000000000000000000000000000000000000000000000000000000000, 2720886997515456348111806569260000000000000000000000000000000000000000000000000000000000000000000000000000000, 2720536997364885985734698416050000000000000000000000000000000000000000000000000000000000000000000000000000000, 2720190163419034584495716591370000000000000000000000000000000000000000000000000000000000000000000000000000000, 2719846387192816893065795830420000000000000000000000000000000000000000000000000000000000000000000000000000000, 2719505543262704605740172324230000000000000000000000000000000000000000000000000000000000000000000000000000000, 2719167498640700375954812889260000000000000000000000000000000000000000000000000000000000000000000000000000000, 2718832118708881879556724880770000000000000000000000000000000000000000000000000000000000000000000000000000000, 2718499270885877794528722087940000000000000000000000000000000000000000000000000000000000000000000000000000000, 2718168826846010833158421334680000000000000000000000000000000000000000000000000000000000000000000000000000000, 2717840663784578848502204841550000000000000000000000000000000000000000000000000000000000000000000000000000000, 2717514665056216079642639323030000000000000000000000000000000000000000000000000000000000000000000000000000000, 2717190720427123912509127658980000000000000000000000000000000000000000000000000000000000000000000000000000000, 2716868726057859573936754086800000000000000000000000000000000000000000000000000000000000000000000000000000000, 2716548584331849653026581196890000000000000000000000000000000000000000000000000000000000000000000000000000000, 2716230203595708243970792307470000000000000000000000000000000000000000000000000000000000000000000000000000000, 2715913497843321291439778782990000000000000000000000000000000000000000000000000000000000000000000000000000000, 2715598386372667879923663126130000000000000000000000000000000000000000000000000000000000000000000000000000000, 2715284793440456864970324714900000000000000000000000000000000000000000000000000000000000000000000000000000000, 2714972647926151707617691218800000000000000000000000000000000000000000000000000000000000000000000000000000000, 2714661883005511732179702760770000000000000000000000000000000000000000000000000000000000000000000000000000000, 2714352435839758111408357108150000000000000000000000000000000000000000000000000000000000000000000000000000000, 2714044247286218864527752258040000000000000000000000000000000000000000000000000000000000000000000000000000000, 2713737261634650242631484660530000000000000000000000000000000000000000000000000000000000000000000000000000000, 2713431426352821669324199890250000000000000000000000000000000000000000000000000000000000000000000000000000000, 2713126691857337547035156278150000000000000000000000000000000000000000000000000000000000000000000000000000000]
noncomputable def wH13 : List Nat := [1365701202404000, 1369909218436000, 1374117234468000, 1378325250501000, 1382533266534000, 1386741282566000, 1390949298598000, 1395157314630000, 1399365330662000, 1403573346694000, 1407781362726000, 1411989378758000, 1416197394790000, 1420405410822000, 1424613426854000, 1428821442886000, 1433029458918000, 1437237474950000, 1441445490982000, 1445653507014000, 1449861523046000, 1454069539078000, 1458277555110000, 1462485571142000, 1466693587174000]
noncomputable def accH14 : List Nat := [3092161603763900235460728360600000000000000000000000000000000000000000000000000000000000000000000000000000000, 3091620988688635897097021094770000000000000000000000000000000000000000000000000000000000000000000000000000000, 3091441828414999267817606094570000000000000000000000000000000000000000000000000000000000000000000000000000000, 3091251033494921931388948385250000000000000000000000000000000000000000000000000000000000000000000000000000000, 3091005325853474101743377202170000000000000000000000000000000000000000000000000000000000000000000000000000000, 3090716216115898468871433578540000000000000000000000000000000000000000000000000000000000000000000000000000000, 3090398908824928943920138632290000000000000000000000000000000000000000000000000000000000000000000000000000000, 3090064689286337093292765295730000000000000000000000000000000000000000000000000000000000000000000000000000000, 3089721024433550562624055382850000000000000000000000000000000000000000000000000000000000000000000000000000000, 3089372670673753264903952439320000000000000000000000000000000000000000000000000000000000000000000000000000000, 3089022607656425041357838556290000000000000000000000000000000000000000000000000000000000000000000000000000000, 3088672679957650394204063906900000000000000000000000000000000000000000000000000000000000000000000000000000000, 3088324012402137310657661233780000000000000000000000000000000000000000000000000000000000000000000000000000000, 3087977273574343325253032045320000000000000000000000000000000000000000000000000000000000000000000000000000000, 3087632842314752224250040123220000000000000000000000000000000000000000000000000000000000000000000000000000000, 3087290913160057643699382709260000000000000000000000000000000000000000000000000000000000000000000000000000000, 3086951563537083506017690776050000000000000000000000000000000000000000000000000000000000000000000000000000000, 3086614796880103617501281731370000000000000000000000000000000000000000000000000000000000000000000000000000000, 3086280570494922914725386750420000000000000000000000000000000000000000000000000000000000000000000000000000000, 3085948813684049073832321184230000000000000000000000000000000000000000000000000000000000000000000000000000000, 3085619439565838445601263729260000000000000000000000000000000000000000000000000000000000000000000000000000000, 3085292352814819608923155820770000000000000000000000000000000000000000000000000000000000000000000000000000000, 3084967454688367762876305447940000000000000000000000000000000000000000000000000000000000000000000000000000000, 3084644646279457116434564634680000000000000000000000000000000000000000000000000000000000000000000000000000000, 3084323830584732153039589741550000000000000000000000000000000000000000000000000000000000000000000000000000000, 3084004913762622858637881343030000000000000000000000000000000000000000000000000000000000000000000000000000000, 3083687805880999289743970858980000000000000000000000000000000000000000000000000000000000000000000000000000000, 3083372421290556118615536626800000000000000000000000000000000000000000000000000000000000000000000000000000000, 3083058678772487747691890436890000000000000000000000000000000000000000000000000000000000000000000000000000000, 3082746501533957385018342187470000000000000000000000000000000000000000000000000000000000000000000000000000000, 3082435817102438367855754122990000000000000000000000000000000000000000000000000000000000000000000000000000000, 3082126557159768574525088086130000000000000000000000000000000000000000000000000000000000000000000000000000000, 3081818657338119023148450014900000000000000000000000000000000000000000000000000000000000000000000000000000000, 3081512057007173567061353818800000000000000000000000000000000000000000000000000000000000000000000000000000000, 3081206699050160550540580460770000000000000000000000000000000000000000000000000000000000000000000000000000000, 3080902529640315498829958328150000000000000000000000000000000000000000000000000000000000000000000000000000000, 3080599498025222000907880298040000000000000000000000000000000000000000000000000000000000000000000000000000000, 3080297556328691701740420100530000000000000000000000000000000000000000000000000000000000000000000000000000000, 3079996659350227335203448610250000000000000000000000000000000000000000000000000000000000000000000000000000000, 3079696764384312626388188078150000000000000000000000000000000000000000000000000000000000000000000000000000000]
noncomputable def wH14 : List Nat := [1470901603206000, 1475109619238000, 1479317635270000, 1483525651302000, 1487733667334000, 1491941683366000, 1496149699398000, 1500357715430000, 1504565731462000, 1508773747495000, 1512981763528000, 1517189779560000, 1521397795592000, 1525605811624000, 1529813827656000, 1534021843688000, 1538229859720000, 1542437875752000, 1546645891784000, 1550853907816000, 1555061923848000, 1559269939880000, 1563477955912000, 1567685971944000, 1571893987976000]
noncomputable def accH15 : List Nat := [3437927989656071348899719400600000000000000000000000000000000000000000000000000000000000000000000000000000000, 3437503002756551709419707824770000000000000000000000000000000000000000000000000000000000000000000000000000000, 3437474312930761206283319034570000000000000000000000000000000000000000000000000000000000000000000000000000000, 3437426709935488539051666005250000000000000000000000000000000000000000000000000000000000000000000000000000000, 3437313428639214800220478622170000000000000000000000000000000000000000000000000000000000000000000000000000000, 3437148411948869031559745328540000000000000000000000000000000000000000000000000000000000000000000000000000000, 3436949259942416219982031982290000000000000000000000000000000000000000000000000000000000000000000000000000000, 3436728941053324312826905095730000000000000000000000000000000000000000000000000000000000000000000000000000000, 3436496046335416850056752152850000000000000000000000000000000000000000000000000000000000000000000000000000000, 3436256090618033009016896989320000000000000000000000000000000000000000000000000000000000000000000000000000000, 3436012579148805499922982626290000000000000000000000000000000000000000000000000000000000000000000000000000000, 3435767731969111820408620746900000000000000000000000000000000000000000000000000000000000000000000000000000000, 3435522950134988575598787753780000000000000000000000000000000000000000000000000000000000000000000000000000000, 3435279111029608340992543845320000000000000000000000000000000000000000000000000000000000000000000000000000000, 3435036755193492500905735923220000000000000000000000000000000000000000000000000000000000000000000000000000000, 3434796205096230026368347939260000000000000000000000000000000000000000000000000000000000000000000000000000000, 3434557641292585175481351856050000000000000000000000000000000000000000000000000000000000000000000000000000000, 3434321151708859723668048131370000000000000000000000000000000000000000000000000000000000000000000000000000000, 3434086763848434318925064970420000000000000000000000000000000000000000000000000000000000000000000000000000000, 3433854466036196720118587034230000000000000000000000000000000000000000000000000000000000000000000000000000000, 3433624221519379266134320769260000000000000000000000000000000000000000000000000000000000000000000000000000000, 3433395977907395773051808490770000000000000000000000000000000000000000000000000000000000000000000000000000000, 3433169673482244574995592547940000000000000000000000000000000000000000000000000000000000000000000000000000000, 3432945241435673723049810554680000000000000000000000000000000000000000000000000000000000000000000000000000000, 3432722612702816385678153311550000000000000000000000000000000000000000000000000000000000000000000000000000000, 3432501717821161239728841123030000000000000000000000000000000000000000000000000000000000000000000000000000000, 3432282488157903223924663118980000000000000000000000000000000000000000000000000000000000000000000000000000000, 3432064856668498173378773336800000000000000000000000000000000000000000000000000000000000000000000000000000000, 3431848758359209409179468136890000000000000000000000000000000000000000000000000000000000000000000000000000000, 3431634130541680458439799347470000000000000000000000000000000000000000000000000000000000000000000000000000000, 3431420912943383816023359212990000000000000000000000000000000000000000000000000000000000000000000000000000000, 3431209047724403279829707746130000000000000000000000000000000000000000000000000000000000000000000000000000000, 3430998479429369585753852924900000000000000000000000000000000000000000000000000000000000000000000000000000000, 3430789154909773586833984588800000000000000000000000000000000000000000000000000000000000000000000000000000000, 3430581023217644475540455130770000000000000000000000000000000000000000000000000000000000000000000000000000000, 3430374035486443590019996958150000000000000000000000000000000000000000000000000000000000000000000000000000000, 3430168144809093775678871138040000000000000000000000000000000000000000000000000000000000000000000000000000000, 3429963306123792738770654070530000000000000000000000000000000000000000000000000000000000000000000000000000000, 3429759476090212674037793980250000000000000000000000000000000000000000000000000000000000000000000000000000000, 3429556612979274145438008688150000000000000000000000000000000000000000000000000000000000000000000000000000000]
noncomputable def wH15 : List Nat := [1576102004008000, 1580310020040000, 1584518036072000, 1588726052104000, 1592934068136000, 1597142084168000, 1601350100200000, 1605558116232000, 1609766132264000, 1613974148296000, 1618182164328000, 1622390180360000, 1626598196392000, 1630806212424000, 1635014228456000, 1639222244489000, 1643430260522000, 1647638276554000, 1651846292586000, 1656054308618000, 1660262324650000, 1664470340682000, 1668678356714000, 1672886372746000, 1677094388778000]
noncomputable def accH16 : List Nat := [3800451290501599871648284000600000000000000000000000000000000000000000000000000000000000000000000000000000000, 3800246461299953521610864514770000000000000000000000000000000000000000000000000000000000000000000000000000000, 3800503169784772824071248964570000000000000000000000000000000000000000000000000000000000000000000000000000000, 3800750770885902491038921765250000000000000000000000000000000000000000000000000000000000000000000000000000000, 3800931379004465401987861132170000000000000000000000000000000000000000000000000000000000000000000000000000000, 3801056843497726318687980848540000000000000000000000000000000000000000000000000000000000000000000000000000000, 3801144544125480526882819242290000000000000000000000000000000000000000000000000000000000000000000000000000000, 3801207494206277822951835885730000000000000000000000000000000000000000000000000000000000000000000000000000000, 3801254233837946466736294622850000000000000000000000000000000000000000000000000000000000000000000000000000000, 3801290097496254156212684199320000000000000000000000000000000000000000000000000000000000000000000000000000000, 3801318324784352317760170486290000000000000000000000000000000000000000000000000000000000000000000000000000000, 3801340833551764104678131866900000000000000000000000000000000000000000000000000000000000000000000000000000000, 3801358721821212743568517993780000000000000000000000000000000000000000000000000000000000000000000000000000000, 3801372585072558668556177015320000000000000000000000000000000000000000000000000000000000000000000000000000000, 3801382714727270478618344693220000000000000000000000000000000000000000000000000000000000000000000000000000000, 3801389221773397714823712699260000000000000000000000000000000000000000000000000000000000000000000000000000000, 3801392113637741938946913476050000000000000000000000000000000000000000000000000000000000000000000000000000000, 3801391341843477690602902171370000000000000000000000000000000000000000000000000000000000000000000000000000000, 3801386831379940859056555590420000000000000000000000000000000000000000000000000000000000000000000000000000000, 3801378498593739243905391714230000000000000000000000000000000000000000000000000000000000000000000000000000000, 3801366261823749014295629049260000000000000000000000000000000000000000000000000000000000000000000000000000000, 3801350047487546033603717590770000000000000000000000000000000000000000000000000000000000000000000000000000000, 3801329793266978584460279567940000000000000000000000000000000000000000000000000000000000000000000000000000000, 3801305449502167015222463674680000000000000000000000000000000000000000000000000000000000000000000000000000000, 3801276979476679817176305041550000000000000000000000000000000000000000000000000000000000000000000000000000000, 3801244359016505251035701183030000000000000000000000000000000000000000000000000000000000000000000000000000000, 3801207575727985613411576758980000000000000000000000000000000000000000000000000000000000000000000000000000000, 3801166628013630343038405516800000000000000000000000000000000000000000000000000000000000000000000000000000000, 3801121524015048095576848316890000000000000000000000000000000000000000000000000000000000000000000000000000000, 3801072280544884198300169877470000000000000000000000000000000000000000000000000000000000000000000000000000000, 3801018922049919300753511552990000000000000000000000000000000000000000000000000000000000000000000000000000000, 3800961479633411682113165676130000000000000000000000000000000000000000000000000000000000000000000000000000000, 3800899990146950448125782084900000000000000000000000000000000000000000000000000000000000000000000000000000000, 3800834495369400048688791368800000000000000000000000000000000000000000000000000000000000000000000000000000000, 3800765041259081513045069880770000000000000000000000000000000000000000000000000000000000000000000000000000000, 3800691677281904979125267688150000000000000000000000000000000000000000000000000000000000000000000000000000000, 3800614455813343074912468878040000000000000000000000000000000000000000000000000000000000000000000000000000000, 3800533431614660152711318780530000000000000000000000000000000000000000000000000000000000000000000000000000000, 3800448661357956399250503760250000000000000000000000000000000000000000000000000000000000000000000000000000000, 3800360203214581103920192578150000000000000000000000000000000000000000000000000000000000000000000000000000000]
noncomputable def wH16 : List Nat := [1681302404810000, 1685510420842000, 1689718436874000, 1693926452906000, 1698134468938000, 1702342484970000, 1706550501002000, 1710758517034000, 1714966533066000, 1719174549098000, 1723382565130000, 1727590581162000, 1731798597194000, 1736006613226000, 1740214629258000, 1744422645290000, 1748630661322000, 1752838677354000, 1757046693386000, 1761254709418000, 1765462725450000, 1769670741482000, 1773878757515000, 1778086773548000, 1782294789580000]
noncomputable def accH17 : List Nat := [4270604720269372539359722200600000000000000000000000000000000000000000000000000000000000000000000000000000000, 4268478599587634780233810224770000000000000000000000000000000000000000000000000000000000000000000000000000000, 4266852407815268824439793474570000000000000000000000000000000000000000000000000000000000000000000000000000000, 4265217688457003010726667355250000000000000000000000000000000000000000000000000000000000000000000000000000000, 4263523774947201911348989032170000000000000000000000000000000000000000000000000000000000000000000000000000000, 4261792594956554760991040828540000000000000000000000000000000000000000000000000000000000000000000000000000000, 4260048270006952320178184762290000000000000000000000000000000000000000000000000000000000000000000000000000000, 4258307799520607406570561195730000000000000000000000000000000000000000000000000000000000000000000000000000000, 4256582006867355946703776262850000000000000000000000000000000000000000000000000000000000000000000000000000000, 4254877484299177145309715479320000000000000000000000000000000000000000000000000000000000000000000000000000000, 4253198086509684096326794136290000000000000000000000000000000000000000000000000000000000000000000000000000000, 4251545923109333527578898896900000000000000000000000000000000000000000000000000000000000000000000000000000000, 4249921993902828555805606523780000000000000000000000000000000000000000000000000000000000000000000000000000000, 4248326592704707544556806715320000000000000000000000000000000000000000000000000000000000000000000000000000000, 4246759565099779008703569323220000000000000000000000000000000000000000000000000000000000000000000000000000000, 4245220474277545297874203209260000000000000000000000000000000000000000000000000000000000000000000000000000000, 4243708708763326800289489426050000000000000000000000000000000000000000000000000000000000000000000000000000000, 4242223552994087118218021921370000000000000000000000000000000000000000000000000000000000000000000000000000000, 4240764233899244272678218390420000000000000000000000000000000000000000000000000000000000000000000000000000000, 4239329951773565651981972764230000000000000000000000000000000000000000000000000000000000000000000000000000000, 4237919900741063921461749349260000000000000000000000000000000000000000000000000000000000000000000000000000000, 4236533282268172652066943810770000000000000000000000000000000000000000000000000000000000000000000000000000000, 4235169313952835936267720457940000000000000000000000000000000000000000000000000000000000000000000000000000000, 4233827235110166809867445144680000000000000000000000000000000000000000000000000000000000000000000000000000000, 4232506310165433914386169191550000000000000000000000000000000000000000000000000000000000000000000000000000000, 4231205830521691206900499953030000000000000000000000000000000000000000000000000000000000000000000000000000000, 4229925115413165305973422348980000000000000000000000000000000000000000000000000000000000000000000000000000000, 4228663512024472434228837566800000000000000000000000000000000000000000000000000000000000000000000000000000000, 4227420395147834742205261716890000000000000000000000000000000000000000000000000000000000000000000000000000000, 4226195166517663349237273407470000000000000000000000000000000000000000000000000000000000000000000000000000000, 4224987253941797335770460862990000000000000000000000000000000000000000000000000000000000000000000000000000000, 4223796110307785185548469466130000000000000000000000000000000000000000000000000000000000000000000000000000000, 4222621212514536505241488564900000000000000000000000000000000000000000000000000000000000000000000000000000000, 4221462060387240963601535328800000000000000000000000000000000000000000000000000000000000000000000000000000000, 4220318175584419157346039620770000000000000000000000000000000000000000000000000000000000000000000000000000000, 4219189100521477902808179498150000000000000000000000000000000000000000000000000000000000000000000000000000000, 4218074397322814427551300028040000000000000000000000000000000000000000000000000000000000000000000000000000000, 4216973646823014394873651680530000000000000000000000000000000000000000000000000000000000000000000000000000000, 4215886447596500154887857890250000000000000000000000000000000000000000000000000000000000000000000000000000000, 4214812415036457384536853088150000000000000000000000000000000000000000000000000000000000000000000000000000000]
noncomputable def wH17 : List Nat := [1786502805612000, 1790710821644000, 1794918837676000, 1799126853708000, 1803334869740000, 1807542885772000, 1811750901804000, 1815958917836000, 1820166933868000, 1824374949900000, 1828582965932000, 1832790981964000, 1836998997996000, 1841207014028000, 1845415030060000, 1849623046092000, 1853831062124000, 1858039078156000, 1862247094188000, 1866455110220000, 1870663126252000, 1874871142284000, 1879079158316000, 1883287174348000, 1887495190380000]
noncomputable def accH18 : List Nat := [4364462835055935441291822112600000000000000000000000000000000000000000000000000000000000000000000000000000000, 4365324314395921460983626720770000000000000000000000000000000000000000000000000000000000000000000000000000000, 4366552726464799626346398086570000000000000000000000000000000000000000000000000000000000000000000000000000000, 4367659637303415747692535391250000000000000000000000000000000000000000000000000000000000000000000000000000000, 4368614029104101549471971224170000000000000000000000000000000000000000000000000000000000000000000000000000000, 4369451069089710135654093988540000000000000000000000000000000000000000000000000000000000000000000000000000000, 4370202482943780968720189702290000000000000000000000000000000000000000000000000000000000000000000000000000000, 4370889854595063557900319867730000000000000000000000000000000000000000000000000000000000000000000000000000000, 4371527313461098732748792014850000000000000000000000000000000000000000000000000000000000000000000000000000000, 4372124277563238667894386271320000000000000000000000000000000000000000000000000000000000000000000000000000000, 4372687233479590136312105160290000000000000000000000000000000000000000000000000000000000000000000000000000000, 4373220801968417752348459400900000000000000000000000000000000000000000000000000000000000000000000000000000000, 4373728375969830952983486299780000000000000000000000000000000000000000000000000000000000000000000000000000000, 4374212512890121257472769535320000000000000000000000000000000000000000000000000000000000000000000000000000000, 4374675184414014971444143011220000000000000000000000000000000000000000000000000000000000000000000000000000000, 4375117941253139416370662257260000000000000000000000000000000000000000000000000000000000000000000000000000000, 4375542025391702310629566642050000000000000000000000000000000000000000000000000000000000000000000000000000000, 4375948448691435151039098257370000000000000000000000000000000000000000000000000000000000000000000000000000000, 4376338049259093096296820330420000000000000000000000000000000000000000000000000000000000000000000000000000000, 4376711532646798527110145024230000000000000000000000000000000000000000000000000000000000000000000000000000000, 4377069502436865511091114961260000000000000000000000000000000000000000000000000000000000000000000000000000000, 4377412483249003973731526930770000000000000000000000000000000000000000000000000000000000000000000000000000000, 4377740938202020628456341329940000000000000000000000000000000000000000000000000000000000000000000000000000000, 4378055282280945236511825720680000000000000000000000000000000000000000000000000000000000000000000000000000000, 4378355892635856454805618487550000000000000000000000000000000000000000000000000000000000000000000000000000000, 4378643116531378133045792565030000000000000000000000000000000000000000000000000000000000000000000000000000000, 4378917277532657165782243204980000000000000000000000000000000000000000000000000000000000000000000000000000000, 4379178680287652898748672338800000000000000000000000000000000000000000000000000000000000000000000000000000000, 4379427614257284294825401460890000000000000000000000000000000000000000000000000000000000000000000000000000000, 4379664356608797919338752687470000000000000000000000000000000000000000000000000000000000000000000000000000000, 4379889174457676704292543530990000000000000000000000000000000000000000000000000000000000000000000000000000000, 4380102326600433712959087646130000000000000000000000000000000000000000000000000000000000000000000000000000000, 4380304064839780119360576188900000000000000000000000000000000000000000000000000000000000000000000000000000000, 4380494635007848377829816840800000000000000000000000000000000000000000000000000000000000000000000000000000000, 4380674277737496326717376020770000000000000000000000000000000000000000000000000000000000000000000000000000000, 4380843229039227209118854818150000000000000000000000000000000000000000000000000000000000000000000000000000000, 4381001720727723836658317688040000000000000000000000000000000000000000000000000000000000000000000000000000000, 4381149980742396302510832200530000000000000000000000000000000000000000000000000000000000000000000000000000000, 4381288233364087555710260710250000000000000000000000000000000000000000000000000000000000000000000000000000000, 4381416699366199968817880288150000000000000000000000000000000000000000000000000000000000000000000000000000000]
noncomputable def wH18 : List Nat := [1891703206412000, 1895911222444000, 1900119238476000, 1904327254509000, 1908535270542000, 1912743286574000, 1916951302606000, 1921159318638000, 1925367334670000, 1929575350702000, 1933783366734000, 1937991382766000, 1942199398798000, 1946407414830000, 1950615430862000, 1954823446894000, 1959031462926000, 1963239478958000, 1967447494990000, 1971655511022000, 1975863527054000, 1980071543086000, 1984279559118000, 1988487575150000, 1992695591182000]
noncomputable def accH19 : List Nat := [4364799997459355869758210419528502817058692288178000000000000000000000000000000000000000000000000000000000000, 4365865158087388078233911283672378613119040000000000000000000000000000000000000000000000000000000000000000000, 4367299857717502564021930803119480811900000000000000000000000000000000000000000000000000000000000000000000000, 4368616554276000685037445480961515174000000000000000000000000000000000000000000000000000000000000000000000000, 4369785531077750041096212133661384320000000000000000000000000000000000000000000000000000000000000000000000000, 4370842956180200318289296237698197200000000000000000000000000000000000000000000000000000000000000000000000000, 4371821038293538713859571613394196000000000000000000000000000000000000000000000000000000000000000000000000000, 4372741503762257338310124313571220000000000000000000000000000000000000000000000000000000000000000000000000000, 4373618498739563224234191357363460000000000000000000000000000000000000000000000000000000000000000000000000000, 4374461456491370198385305895616400000000000000000000000000000000000000000000000000000000000000000000000000000, 4375276921744735542632771339077400000000000000000000000000000000000000000000000000000000000000000000000000000, 4376069618741689803728827029004600000000000000000000000000000000000000000000000000000000000000000000000000000, 4376843076358254592523758181607000000000000000000000000000000000000000000000000000000000000000000000000000000, 4377600005204627550018512723262000000000000000000000000000000000000000000000000000000000000000000000000000000, 4378342534716393375376912026998000000000000000000000000000000000000000000000000000000000000000000000000000000, 4379072368615957554266283022358000000000000000000000000000000000000000000000000000000000000000000000000000000, 4379790890897330186227836405368000000000000000000000000000000000000000000000000000000000000000000000000000000, 4380499240469713702615702933334000000000000000000000000000000000000000000000000000000000000000000000000000000, 4381198365198850800868016477456000000000000000000000000000000000000000000000000000000000000000000000000000000, 4381889061907856459351826079230000000000000000000000000000000000000000000000000000000000000000000000000000000, 4382572006528170206303042804440000000000000000000000000000000000000000000000000000000000000000000000000000000, 4383247777190351719545262592230000000000000000000000000000000000000000000000000000000000000000000000000000000, 4383916872118278827381209570060000000000000000000000000000000000000000000000000000000000000000000000000000000, 4384579723662563004091882522780000000000000000000000000000000000000000000000000000000000000000000000000000000, 4385236709419939446674915159210000000000000000000000000000000000000000000000000000000000000000000000000000000, 4385888161101756961164494724910000000000000000000000000000000000000000000000000000000000000000000000000000000, 4386534371697343777651098290900000000000000000000000000000000000000000000000000000000000000000000000000000000, 4387175601262995750514134225580000000000000000000000000000000000000000000000000000000000000000000000000000000, 4387812081666653754524844759790000000000000000000000000000000000000000000000000000000000000000000000000000000, 4388444020487606280995266452690000000000000000000000000000000000000000000000000000000000000000000000000000000, 4389071604244896842829541564010000000000000000000000000000000000000000000000000000000000000000000000000000000, 4389695001087852821020581857650000000000000000000000000000000000000000000000000000000000000000000000000000000, 4390314363044083087067803281100000000000000000000000000000000000000000000000000000000000000000000000000000000, 4390929827926207611042535524600000000000000000000000000000000000000000000000000000000000000000000000000000000, 4391541520944419507258690292770000000000000000000000000000000000000000000000000000000000000000000000000000000, 4392149556080724557390675774950000000000000000000000000000000000000000000000000000000000000000000000000000000, 4392754037268067368213417735440000000000000000000000000000000000000000000000000000000000000000000000000000000, 4393355059418719053528113523330000000000000000000000000000000000000000000000000000000000000000000000000000000, 4393952709304603973298659064650000000000000000000000000000000000000000000000000000000000000000000000000000000, 4394547066328729785435121271750000000000000000000000000000000000000000000000000000000000000000000000000000000]
noncomputable def wH19 : List Nat := [1996903607214000, 2001111623245000, 2005319639280000, 2009527655310000, 2013735671340000, 2017943687380000, 2022151703410000, 2026359719440000, 2030567735470000, 2034775751500000, 2038983767540000, 2043191783570000, 2047399799600000, 2051607815630000, 2055815831660000, 2060023847700000, 2064231863730000, 2068439879760000, 2072647895790000, 2076855911820000, 2081063927860000, 2085271943890000, 2089479959920000, 2093687975950000, 2097895991980000]
noncomputable def accH20 : List Nat := [4364799997459355869758210453574522452971162709070325867966743907964838345821451536483056576759609435100000000, 4365865158087388078536005117952036646441069750310515872821671165694007982315320000000000000000000000000000000, 4367299857717503680319893841880389107615193243311996111075370610780000000000000000000000000000000000000000000, 4368616554276175125327464715451527806915493787573411212800000000000000000000000000000000000000000000000000000, 4369785531083249761536268829447647820146056843369462200000000000000000000000000000000000000000000000000000000, 4370842956248769588312333209301978397870168111854400000000000000000000000000000000000000000000000000000000000, 4371821038767622311829920527532087597342504895800000000000000000000000000000000000000000000000000000000000000, 4372741505959876150825665054969918347391885020000000000000000000000000000000000000000000000000000000000000000, 4373618506406445118244444195638637621106549000000000000000000000000000000000000000000000000000000000000000000, 4374461478183551558843674151312117252635020000000000000000000000000000000000000000000000000000000000000000000, 4375276974099093188129378519426919638586200000000000000000000000000000000000000000000000000000000000000000000, 4376069730415470354840528337993335370822000000000000000000000000000000000000000000000000000000000000000000000, 4376843292332443955390842659512054610220000000000000000000000000000000000000000000000000000000000000000000000, 4377600391144469433052452780236507644900000000000000000000000000000000000000000000000000000000000000000000000, 4378343181133982315724478434682642386000000000000000000000000000000000000000000000000000000000000000000000000, 4379073394652992255111300243151408210000000000000000000000000000000000000000000000000000000000000000000000000, 4379792447619167856942199424537729980000000000000000000000000000000000000000000000000000000000000000000000000, 4380501513623534485619978159958756920000000000000000000000000000000000000000000000000000000000000000000000000, 4381201577435153480330095255541373200000000000000000000000000000000000000000000000000000000000000000000000000, 4381893474496056602509122789264609900000000000000000000000000000000000000000000000000000000000000000000000000, 4382577920616112264634774724947681400000000000000000000000000000000000000000000000000000000000000000000000000, 4383255534666992703843898236394399000000000000000000000000000000000000000000000000000000000000000000000000000, 4383926856141409726891460454267271000000000000000000000000000000000000000000000000000000000000000000000000000, 4384592358911503473661848009163492000000000000000000000000000000000000000000000000000000000000000000000000000, 4385252462128446013473039805130600000000000000000000000000000000000000000000000000000000000000000000000000000, 4385907538920215353135715623494020000000000000000000000000000000000000000000000000000000000000000000000000000, 4386557923426568174449762962430570000000000000000000000000000000000000000000000000000000000000000000000000000, 4387203916495219624030366827163390000000000000000000000000000000000000000000000000000000000000000000000000000, 4387845790362930908386429293993860000000000000000000000000000000000000000000000000000000000000000000000000000, 4388483792515053037141805817738200000000000000000000000000000000000000000000000000000000000000000000000000000, 4389118148892088557848384386925700000000000000000000000000000000000000000000000000000000000000000000000000000, 4389749066572268050036660840084700000000000000000000000000000000000000000000000000000000000000000000000000000, 4390376736021742125217833108642000000000000000000000000000000000000000000000000000000000000000000000000000000, 4391001333010533640732426978499500000000000000000000000000000000000000000000000000000000000000000000000000000, 4391623020238799558641196031847400000000000000000000000000000000000000000000000000000000000000000000000000000, 4392241948727196889479533836405000000000000000000000000000000000000000000000000000000000000000000000000000000, 4392858259012947392177047330301200000000000000000000000000000000000000000000000000000000000000000000000000000, 4393472082194733929322935148050000000000000000000000000000000000000000000000000000000000000000000000000000000, 4394083540828179144017884153218000000000000000000000000000000000000000000000000000000000000000000000000000000, 4394692749710404592911771933766000000000000000000000000000000000000000000000000000000000000000000000000000000]
noncomputable def wH : List Nat :=
  wH0 ++ wH1 ++ wH2 ++ wH3 ++ wH4 ++ wH5 ++ wH6 ++ wH7 ++ wH8 ++ wH9 ++ wH10 ++ wH11 ++ wH12 ++ wH13 ++ wH14 ++ wH15 ++ wH16 ++ wH17 ++ wH18 ++ wH19
noncomputable def accS0 : List Nat := [0, 0, 0, 0, 0, 0, 0, 0, 0, 0, 0, 0, 0, 0, 0, 0, 0, 0, 0, 0, 0, 0, 0, 0, 0, 0, 0, 0, 0, 0, 0, 0, 0, 0, 0, 0, 0, 0, 0, 0]
noncomputable def wS0 : List Nat := [1, 1, 1, 1, 1, 1, 1, 1, 1, 1, 1, 1, 1, 1, 1, 1, 1, 1, 1, 1, 1, 1, 1, 1, 1]
noncomputable def accS1 : List Nat := [100329053318694060000000000000000000000000000000000000000000000000000000000000000000000000000, 100390033857284590000000000000000000000000000000000000000000000000000000000000000000000000000, 99916998183935650000000000000000000000000000000000000000000000000000000000000000000000000000, 99495886131470140000000000000000000000000000000000000000000000000000000000000000000000000000, 99186527670709860000000000000000000000000000000000000000000000000000000000000000000000000000, 98964268058236800000000000000000000000000000000000000000000000000000000000000000000000000000, 98801616028784600000000000000000000000000000000000000000000000000000000000000000000000000000, 98678988545347990000000000000000000000000000000000000000000000000000000000000000000000000000, 98583535556512960000000000000000000000000000000000000000000000000000000000000000000000000000, 98506907385608470000000000000000000000000000000000000000000000000000000000000000000000000000, 98443611037642650000000000000000000000000000000000000000000000000000000000000000000000000000, 98389961543551260000000000000000000000000000000000000000000000000000000000000000000000000000, 98343434012048530000000000000000000000000000000000000000000000000000000000000000000000000000, 98302262511762300000000000000000000000000000000000000000000000000000000000000000000000000000, 98265188120717950000000000000000000000000000000000000000000000000000000000000000000000000000, 98231297594399420000000000000000000000000000000000000000000000000000000000000000000000000000, 98199917911577290000000000000000000000000000000000000000000000000000000000000000000000000000, 98170545932209430000000000000000000000000000000000000000000000000000000000000000000000000000, 98142800566242280000000000000000000000000000000000000000000000000000000000000000000000000000, 98116389665184060000000000000000000000000000000000000000000000000000000000000000000000000000, 98091086730434860000000000000000000000000000000000000000000000000000000000000000000000000000, 98066714284797620000000000000000000000000000000000000000000000000000000000000000000000000000, 98043131843625250000000000000000000000000000000000000000000000000000000000000000000000000000, 98020227109100950000000000000000000000000000000000000000000000000000000000000000000000000000, 97997909454853620000000000000000000000000000000000000000000000000000000000000000000000000000, 97976105057755970000000000000000000000000000000000000000000000000000000000000000000000000000, 97954753229067080000000000000000000000000000000000000000000000000000000000000000000000000000, 97933803626170440000000000000000000000000000000000000000000000000000000000000000000000000000, 97913214117853750000000000000000000000000000000000000000000000000000000000000000000000000000, 97892949138614210000000000000000000000000000000000000000000000000000000000000000000000000000, 97872978410846700000000000000000000000000000000000000000000000000000000000000000000000000000, 97853275947093400000000000000000000000000000000000000000000000000000000000000000000000000000, 97833819265391830000000000000000000000000000000000000000000000000000000000000000000000000000, 97814588768966600000000000000000000000000000000000000000000000000000000000000000000000000000, 97795567252749270000000000000000000000000000000000000000000000000000000000000000000000000000, 97776739508666660000000000000000000000000000000000000000000000000000000000000000000000000000, 97758092007648850000000000000000000000000000000000000000000000000000000000000000000000000000, 97739612642333090000000000000000000000000000000000000000000000000000000000000000000000000000, 97721290517776380000000000000000000000000000000000000000000000000000000000000000000000000000, 97703115779486690000000000000000000000000000000000000000000000000000000000000000000000000000]
noncomputable def wS1 : List Nat := [1, 1, 1, 1, 1, 1, 1, 1, 1, 1, 1, 1, 1, 1, 1, 1, 1, 1, 1, 1, 1, 1, 1, 1, 1]
noncomputable def accS2 : List Nat := [301221732433164060000000000000000000000000000000000000000000000000000000000000000000000000000, 301211493128784590000000000000000000000000000000000000000000000000000000000000000000000000000, 300697244480925650000000000000000000000000000000000000000000000000000000000000000000000000000, 300237226396980140000000000000000000000000000000000000000000000000000000000000000000000000000, 299887326712719860000000000000000000000000000000000000000000000000000000000000000000000000000, 299623081965216800000000000000000000000000000000000000000000000000000000000000000000000000000, 299417710329614600000000000000000000000000000000000000000000000000000000000000000000000000000, 299252206205727990000000000000000000000000000000000000000000000000000000000000000000000000000, 299114099354582960000000000000000000000000000000000000000000000000000000000000000000000000000, 298995265510358470000000000000000000000000000000000000000000000000000000000000000000000000000, 298890333144382650000000000000000000000000000000000000000000000000000000000000000000000000000, 298795673147001260000000000000000000000000000000000000000000000000000000000000000000000000000, 298708776688178530000000000000000000000000000000000000000000000000000000000000000000000000000, 298627870586512300000000000000000000000000000000000000000000000000000000000000000000000000000, 298551675605317950000000000000000000000000000000000000000000000000000000000000000000000000000, 298479251378409420000000000000000000000000000000000000000000000000000000000000000000000000000, 298409894722727290000000000000000000000000000000000000000000000000000000000000000000000000000, 298343071526219430000000000000000000000000000000000000000000000000000000000000000000000000000, 298278370204692280000000000000000000000000000000000000000000000000000000000000000000000000000, 298215469306564060000000000000000000000000000000000000000000000000000000000000000000000000000, 298154114585824860000000000000000000000000000000000000000000000000000000000000000000000000000, 298094102528117620000000000000000000000000000000000000000000000000000000000000000000000000000, 298035268352335250000000000000000000000000000000000000000000000000000000000000000000000000000, 297977477163030950000000000000000000000000000000000000000000000000000000000000000000000000000, 297920617353903620000000000000000000000000000000000000000000000000000000000000000000000000000, 297864595638615970000000000000000000000000000000000000000000000000000000000000000000000000000, 297809333273297080000000000000000000000000000000000000000000000000000000000000000000000000000, 297754763158880440000000000000000000000000000000000000000000000000000000000000000000000000000, 297700827600963750000000000000000000000000000000000000000000000000000000000000000000000000000, 297647476564084210000000000000000000000000000000000000000000000000000000000000000000000000000, 297594666301556700000000000000000000000000000000000000000000000000000000000000000000000000000, 297542358272063400000000000000000000000000000000000000000000000000000000000000000000000000000, 297490518277221830000000000000000000000000000000000000000000000000000000000000000000000000000, 297439115770006600000000000000000000000000000000000000000000000000000000000000000000000000000, 297388123297099270000000000000000000000000000000000000000000000000000000000000000000000000000, 297337516045786660000000000000000000000000000000000000000000000000000000000000000000000000000, 297287271472968850000000000000000000000000000000000000000000000000000000000000000000000000000, 297237369000443090000000000000000000000000000000000000000000000000000000000000000000000000000, 297187789762176380000000000000000000000000000000000000000000000000000000000000000000000000000, 297138516393386690000000000000000000000000000000000000000000000000000000000000000000000000000]
noncomputable def wS2 : List Nat := [1, 1, 1, 1, 1, 1, 1, 1, 1, 1, 1, 1, 1, 1, 1, 1, 1, 1, 1, 1, 1, 1, 1, 1, 1]
noncomputable def accS3 : List Nat := [573205627494664060000000000000000000000000000000000000000000000000000000000000000000000000000, 573088515098484590000000000000000000000000000000000000000000000000000000000000000000000000000, 572508393424875650000000000000000000000000000000000000000000000000000000000000000000000000000, 571986104500510140000000000000000000000000000000000000000000000000000000000000000000000000000, 571571948206299860000000000000000000000000000000000000000000000000000000000000000000000000000, 571241651301516800000000000000000000000000000000000000000000000000000000000000000000000000000, 570969360992074600000000000000000000000000000000000000000000000000000000000000000000000000000, 570736834679247990000000000000000000000000000000000000000000000000000000000000000000000000000, 570532103115792960000000000000000000000000000000000000000000000000000000000000000000000000000, 570347336656828470000000000000000000000000000000000000000000000000000000000000000000000000000, 570177319189752650000000000000000000000000000000000000000000000000000000000000000000000000000, 570018489257811260000000000000000000000000000000000000000000000000000000000000000000000000000, 569868352649598530000000000000000000000000000000000000000000000000000000000000000000000000000, 569725119974632300000000000000000000000000000000000000000000000000000000000000000000000000000, 569587478753657950000000000000000000000000000000000000000000000000000000000000000000000000000, 569454446750559420000000000000000000000000000000000000000000000000000000000000000000000000000, 569325275331927290000000000000000000000000000000000000000000000000000000000000000000000000000, 569199384324309430000000000000000000000000000000000000000000000000000000000000000000000000000, 569076317165222280000000000000000000000000000000000000000000000000000000000000000000000000000, 568955709432234060000000000000000000000000000000000000000000000000000000000000000000000000000, 568837266365904860000000000000000000000000000000000000000000000000000000000000000000000000000, 568720746568597620000000000000000000000000000000000000000000000000000000000000000000000000000, 568605950010685250000000000000000000000000000000000000000000000000000000000000000000000000000, 568492709094260950000000000000000000000000000000000000000000000000000000000000000000000000000, 568380881919293620000000000000000000000000000000000000000000000000000000000000000000000000000, 568270347150145970000000000000000000000000000000000000000000000000000000000000000000000000000, 568161000068537080000000000000000000000000000000000000000000000000000000000000000000000000000, 568052749509760440000000000000000000000000000000000000000000000000000000000000000000000000000, 567945515458753750000000000000000000000000000000000000000000000000000000000000000000000000000, 567839227156804210000000000000000000000000000000000000000000000000000000000000000000000000000, 567733821591206700000000000000000000000000000000000000000000000000000000000000000000000000000, 567629242285583400000000000000000000000000000000000000000000000000000000000000000000000000000, 567525438320541830000000000000000000000000000000000000000000000000000000000000000000000000000, 567422363537916600000000000000000000000000000000000000000000000000000000000000000000000000000, 567319975889079270000000000000000000000000000000000000000000000000000000000000000000000000000, 567218236894976660000000000000000000000000000000000000000000000000000000000000000000000000000, 567117111198398850000000000000000000000000000000000000000000000000000000000000000000000000000, 567016566189833090000000000000000000000000000000000000000000000000000000000000000000000000000, 566916571691436380000000000000000000000000000000000000000000000000000000000000000000000000000, 566817099689816690000000000000000000000000000000000000000000000000000000000000000000000000000]
noncomputable def wS3 : List Nat := [1, 1, 1, 1, 1, 1, 1, 1, 1, 1, 1, 1, 1, 1, 1, 1, 1, 1, 1, 1, 1, 1, 1, 1, 1]
noncomputable def accS4 : List Nat := [892284633544164060000000000000000000000000000000000000000000000000000000000000000000000000000, 892038813603884590000000000000000000000000000000000000000000000000000000000000000000000000000, 891374742005475650000000000000000000000000000000000000000000000000000000000000000000000000000, 890770446811610140000000000000000000000000000000000000000000000000000000000000000000000000000, 890270391544199860000000000000000000000000000000000000000000000000000000000000000000000000000, 889850961396116800000000000000000000000000000000000000000000000000000000000000000000000000000, 889487637932174600000000000000000000000000000000000000000000000000000000000000000000000000000, 889163219793447990000000000000000000000000000000000000000000000000000000000000000000000000000, 888866426407292960000000000000000000000000000000000000000000000000000000000000000000000000000, 888589853246628470000000000000000000000000000000000000000000000000000000000000000000000000000, 888328533901152650000000000000000000000000000000000000000000000000000000000000000000000000000, 888079045103211260000000000000000000000000000000000000000000000000000000000000000000000000000, 887838961576098530000000000000000000000000000000000000000000000000000000000000000000000000000, 887606520534532300000000000000000000000000000000000000000000000000000000000000000000000000000, 887380410653057950000000000000000000000000000000000000000000000000000000000000000000000000000, 887159635905859420000000000000000000000000000000000000000000000000000000000000000000000000000, 886943425443127290000000000000000000000000000000000000000000000000000000000000000000000000000, 886731172482309430000000000000000000000000000000000000000000000000000000000000000000000000000, 886522391939022280000000000000000000000000000000000000000000000000000000000000000000000000000, 886316690473334060000000000000000000000000000000000000000000000000000000000000000000000000000, 886113744914804860000000000000000000000000000000000000000000000000000000000000000000000000000, 885913286484097620000000000000000000000000000000000000000000000000000000000000000000000000000, 885715089080885250000000000000000000000000000000000000000000000000000000000000000000000000000, 885518960475060950000000000000000000000000000000000000000000000000000000000000000000000000000, 885324735611593620000000000000000000000000000000000000000000000000000000000000000000000000000, 885132271452245970000000000000000000000000000000000000000000000000000000000000000000000000000, 884941442974537080000000000000000000000000000000000000000000000000000000000000000000000000000, 884752140034160440000000000000000000000000000000000000000000000000000000000000000000000000000, 884564264875853750000000000000000000000000000000000000000000000000000000000000000000000000000, 884377730155904210000000000000000000000000000000000000000000000000000000000000000000000000000, 884192457347506700000000000000000000000000000000000000000000000000000000000000000000000000000, 884008375446683400000000000000000000000000000000000000000000000000000000000000000000000000000, 883825419919141830000000000000000000000000000000000000000000000000000000000000000000000000000, 883643531829716600000000000000000000000000000000000000000000000000000000000000000000000000000, 883462657126779270000000000000000000000000000000000000000000000000000000000000000000000000000, 883282746038976660000000000000000000000000000000000000000000000000000000000000000000000000000, 883103752573398850000000000000000000000000000000000000000000000000000000000000000000000000000, 882925634089633090000000000000000000000000000000000000000000000000000000000000000000000000000, 882748350936536380000000000000000000000000000000000000000000000000000000000000000000000000000, 882571866142316690000000000000000000000000000000000000000000000000000000000000000000000000000]
noncomputable def wS4 : List Nat := [1, 1, 1, 1, 1, 1, 1, 1, 1, 1, 1, 1, 1, 1, 1, 1, 1, 1, 1, 1, 1, 1, 1, 1, 1]
noncomputable def accS5 : List Nat := [1202455531502964060000000000000000000000000000000000000000000000000000000000000000000000000000, 1202160268461584590000000000000000000000000000000000000000000000000000000000000000000000000000, 1201488436453175650000000000000000000000000000000000000000000000000000000000000000000000000000, 1200876938448310140000000000000000000000000000000000000000000000000000000000000000000000000000, 1200364902370799860000000000000000000000000000000000000000000000000000000000000000000000000000, 1199929560282816800000000000000000000000000000000000000000000000000000000000000000000000000000, 1199547804740974600000000000000000000000000000000000000000000000000000000000000000000000000000, 1199203512276847990000000000000000000000000000000000000000000000000000000000000000000000000000, 1198886115870092960000000000000000000000000000000000000000000000000000000000000000000000000000, 1198588658638828470000000000000000000000000000000000000000000000000000000000000000000000000000, 1198306446228352650000000000000000000000000000000000000000000000000000000000000000000000000000, 1198036215649711260000000000000000000000000000000000000000000000000000000000000000000000000000, 1197775631863198530000000000000000000000000000000000000000000000000000000000000000000000000000, 1197522978792132300000000000000000000000000000000000000000000000000000000000000000000000000000, 1197276964945957950000000000000000000000000000000000000000000000000000000000000000000000000000, 1197036597699459420000000000000000000000000000000000000000000000000000000000000000000000000000, 1196801099715427290000000000000000000000000000000000000000000000000000000000000000000000000000, 1196569851954409430000000000000000000000000000000000000000000000000000000000000000000000000000, 1196342353890322280000000000000000000000000000000000000000000000000000000000000000000000000000, 1196118195194034060000000000000000000000000000000000000000000000000000000000000000000000000000, 1195897035172204860000000000000000000000000000000000000000000000000000000000000000000000000000, 1195678587622897620000000000000000000000000000000000000000000000000000000000000000000000000000, 1195462609502785250000000000000000000000000000000000000000000000000000000000000000000000000000, 1195248892337360950000000000000000000000000000000000000000000000000000000000000000000000000000, 1195037255644293620000000000000000000000000000000000000000000000000000000000000000000000000000, 1194827541822145970000000000000000000000000000000000000000000000000000000000000000000000000000, 1194619612161337080000000000000000000000000000000000000000000000000000000000000000000000000000, 1194413343684060440000000000000000000000000000000000000000000000000000000000000000000000000000, 1194208626626253750000000000000000000000000000000000000000000000000000000000000000000000000000, 1194005362413504210000000000000000000000000000000000000000000000000000000000000000000000000000, 1193803462022006700000000000000000000000000000000000000000000000000000000000000000000000000000, 1193602844637083400000000000000000000000000000000000000000000000000000000000000000000000000000, 1193403436551041830000000000000000000000000000000000000000000000000000000000000000000000000000, 1193205170247516600000000000000000000000000000000000000000000000000000000000000000000000000000, 1193007983643679270000000000000000000000000000000000000000000000000000000000000000000000000000, 1192811819444876660000000000000000000000000000000000000000000000000000000000000000000000000000, 1192616624605798850000000000000000000000000000000000000000000000000000000000000000000000000000, 1192422349868333090000000000000000000000000000000000000000000000000000000000000000000000000000, 1192228949368136380000000000000000000000000000000000000000000000000000000000000000000000000000, 1192036380294116690000000000000000000000000000000000000000000000000000000000000000000000000000]
noncomputable def wS5 : List Nat := [1, 1, 1, 1, 1, 1, 1, 1, 1, 1, 1, 1, 1, 1, 1, 1, 1, 1, 1, 1, 1, 1, 1, 1, 1]
noncomputable def accS6 : List Nat := [1514276967599964060000000000000000000000000000000000000000000000000000000000000000000000000000, 1513899892879884590000000000000000000000000000000000000000000000000000000000000000000000000000, 1513190463661475650000000000000000000000000000000000000000000000000000000000000000000000000000, 1512543596590210140000000000000000000000000000000000000000000000000000000000000000000000000000, 1511992592522999860000000000000000000000000000000000000000000000000000000000000000000000000000, 1511515243368116800000000000000000000000000000000000000000000000000000000000000000000000000000, 1511089695517574600000000000000000000000000000000000000000000000000000000000000000000000000000, 1510700813290047990000000000000000000000000000000000000000000000000000000000000000000000000000, 1510338683907392960000000000000000000000000000000000000000000000000000000000000000000000000000, 1509996752931228470000000000000000000000000000000000000000000000000000000000000000000000000000, 1509670560156352650000000000000000000000000000000000000000000000000000000000000000000000000000, 1509356969637311260000000000000000000000000000000000000000000000000000000000000000000000000000, 1509053706959998530000000000000000000000000000000000000000000000000000000000000000000000000000, 1508759076259632300000000000000000000000000000000000000000000000000000000000000000000000000000, 1508471782159857950000000000000000000000000000000000000000000000000000000000000000000000000000, 1508190814198159420000000000000000000000000000000000000000000000000000000000000000000000000000, 1507915369523327290000000000000000000000000000000000000000000000000000000000000000000000000000, 1507644799766709430000000000000000000000000000000000000000000000000000000000000000000000000000, 1507378573616422280000000000000000000000000000000000000000000000000000000000000000000000000000, 1507116249921734060000000000000000000000000000000000000000000000000000000000000000000000000000, 1506857457962304860000000000000000000000000000000000000000000000000000000000000000000000000000, 1506601882777297620000000000000000000000000000000000000000000000000000000000000000000000000000, 1506349254067285250000000000000000000000000000000000000000000000000000000000000000000000000000, 1506099337702860950000000000000000000000000000000000000000000000000000000000000000000000000000, 1505851929157093620000000000000000000000000000000000000000000000000000000000000000000000000000, 1505606848353545970000000000000000000000000000000000000000000000000000000000000000000000000000, 1505363935605537080000000000000000000000000000000000000000000000000000000000000000000000000000, 1505123048367860440000000000000000000000000000000000000000000000000000000000000000000000000000, 1504884058626953750000000000000000000000000000000000000000000000000000000000000000000000000000, 1504646850781204210000000000000000000000000000000000000000000000000000000000000000000000000000, 1504411319910006700000000000000000000000000000000000000000000000000000000000000000000000000000, 1504177370344983400000000000000000000000000000000000000000000000000000000000000000000000000000, 1503944914486541830000000000000000000000000000000000000000000000000000000000000000000000000000, 1503713871809516600000000000000000000000000000000000000000000000000000000000000000000000000000, 1503484168036179270000000000000000000000000000000000000000000000000000000000000000000000000000, 1503255734428476660000000000000000000000000000000000000000000000000000000000000000000000000000, 1503028507185498850000000000000000000000000000000000000000000000000000000000000000000000000000, 1502802426932433090000000000000000000000000000000000000000000000000000000000000000000000000000, 1502577438274836380000000000000000000000000000000000000000000000000000000000000000000000000000, 1502353489413016690000000000000000000000000000000000000000000000000000000000000000000000000000]
noncomputable def wS6 : List Nat := [1, 1, 1, 1, 1, 1, 1, 1, 1, 1, 1, 1, 1, 1, 1, 1, 1, 1, 1, 1, 1, 1, 1, 1, 1]
noncomputable def accS7 : List Nat := [1838006873305264060000000000000000000000000000000000000000000000000000000000000000000000000000, 1837527829269884590000000000000000000000000000000000000000000000000000000000000000000000000000, 1836762569200175650000000000000000000000000000000000000000000000000000000000000000000000000000, 1836062283603610140000000000000000000000000000000000000000000000000000000000000000000000000000, 1835454172316099860000000000000000000000000000000000000000000000000000000000000000000000000000, 1834916597423716800000000000000000000000000000000000000000000000000000000000000000000000000000, 1834429011144774600000000000000000000000000000000000000000000000000000000000000000000000000000, 1833977309507847990000000000000000000000000000000000000000000000000000000000000000000000000000, 1833552262860392960000000000000000000000000000000000000000000000000000000000000000000000000000, 1833147735748128470000000000000000000000000000000000000000000000000000000000000000000000000000, 1832759510241952650000000000000000000000000000000000000000000000000000000000000000000000000000, 1832384580286011260000000000000000000000000000000000000000000000000000000000000000000000000000, 1832020731786498530000000000000000000000000000000000000000000000000000000000000000000000000000, 1831666286985432300000000000000000000000000000000000000000000000000000000000000000000000000000, 1831319943544357950000000000000000000000000000000000000000000000000000000000000000000000000000, 1830980669618659420000000000000000000000000000000000000000000000000000000000000000000000000000, 1830647633132627290000000000000000000000000000000000000000000000000000000000000000000000000000, 1830320152693409430000000000000000000000000000000000000000000000000000000000000000000000000000, 1829997662628822280000000000000000000000000000000000000000000000000000000000000000000000000000, 1829679687575334060000000000000000000000000000000000000000000000000000000000000000000000000000, 1829365823611704860000000000000000000000000000000000000000000000000000000000000000000000000000, 1829055724070897620000000000000000000000000000000000000000000000000000000000000000000000000000, 1828749088681585250000000000000000000000000000000000000000000000000000000000000000000000000000, 1828445655168360950000000000000000000000000000000000000000000000000000000000000000000000000000, 1828145192683193620000000000000000000000000000000000000000000000000000000000000000000000000000, 1827847496598145970000000000000000000000000000000000000000000000000000000000000000000000000000, 1827552384358637080000000000000000000000000000000000000000000000000000000000000000000000000000, 1827259692132160440000000000000000000000000000000000000000000000000000000000000000000000000000, 1826969272088653750000000000000000000000000000000000000000000000000000000000000000000000000000, 1826680990174304210000000000000000000000000000000000000000000000000000000000000000000000000000, 1826394724272206700000000000000000000000000000000000000000000000000000000000000000000000000000, 1826110362675783400000000000000000000000000000000000000000000000000000000000000000000000000000, 1825827802808441830000000000000000000000000000000000000000000000000000000000000000000000000000, 1825546950144916600000000000000000000000000000000000000000000000000000000000000000000000000000, 1825267717303379270000000000000000000000000000000000000000000000000000000000000000000000000000, 1824990023265376660000000000000000000000000000000000000000000000000000000000000000000000000000, 1824713792704498850000000000000000000000000000000000000000000000000000000000000000000000000000, 1824438955418233090000000000000000000000000000000000000000000000000000000000000000000000000000, 1824165445823936380000000000000000000000000000000000000000000000000000000000000000000000000000, 1823893202524916690000000000000000000000000000000000000000000000000000000000000000000000000000]
noncomputable def wS7 : List Nat := [1, 1, 1, 1, 1, 1, 1, 1, 1, 1, 1, 1, 1, 1, 1, 1, 1, 1, 1, 1, 1, 1, 1, 1, 1]
noncomputable def accS8 : List Nat := [2168385349202064060000000000000000000000000000000000000000000000000000000000000000000000000000, 2167809997798984590000000000000000000000000000000000000000000000000000000000000000000000000000, 2166994017629775650000000000000000000000000000000000000000000000000000000000000000000000000000, 2166244449897510140000000000000000000000000000000000000000000000000000000000000000000000000000, 2165582589752899860000000000000000000000000000000000000000000000000000000000000000000000000000, 2164987588660016800000000000000000000000000000000000000000000000000000000000000000000000000000, 2164440353120274600000000000000000000000000000000000000000000000000000000000000000000000000000, 2163927903725147990000000000000000000000000000000000000000000000000000000000000000000000000000, 2163441753584192960000000000000000000000000000000000000000000000000000000000000000000000000000, 2162976226737528470000000000000000000000000000000000000000000000000000000000000000000000000000, 2162527376529252650000000000000000000000000000000000000000000000000000000000000000000000000000, 2162092348372511260000000000000000000000000000000000000000000000000000000000000000000000000000, 2161669005015198530000000000000000000000000000000000000000000000000000000000000000000000000000, 2161255699754332300000000000000000000000000000000000000000000000000000000000000000000000000000, 2160851133679857950000000000000000000000000000000000000000000000000000000000000000000000000000, 2160454262112859420000000000000000000000000000000000000000000000000000000000000000000000000000, 2160064230978127290000000000000000000000000000000000000000000000000000000000000000000000000000, 2159680332126609430000000000000000000000000000000000000000000000000000000000000000000000000000, 2159301971098722280000000000000000000000000000000000000000000000000000000000000000000000000000, 2158928643371234060000000000000000000000000000000000000000000000000000000000000000000000000000, 2158559916477704860000000000000000000000000000000000000000000000000000000000000000000000000000, 2158195416382597620000000000000000000000000000000000000000000000000000000000000000000000000000, 2157834816910285250000000000000000000000000000000000000000000000000000000000000000000000000000, 2157477831475460950000000000000000000000000000000000000000000000000000000000000000000000000000, 2157124206530493620000000000000000000000000000000000000000000000000000000000000000000000000000, 2156773716319445970000000000000000000000000000000000000000000000000000000000000000000000000000, 2156426158656237080000000000000000000000000000000000000000000000000000000000000000000000000000, 2156081351477860440000000000000000000000000000000000000000000000000000000000000000000000000000, 2155739130024453750000000000000000000000000000000000000000000000000000000000000000000000000000, 2155399344511904210000000000000000000000000000000000000000000000000000000000000000000000000000, 2155061858194106700000000000000000000000000000000000000000000000000000000000000000000000000000, 2154726545742283400000000000000000000000000000000000000000000000000000000000000000000000000000, 2154393291879741830000000000000000000000000000000000000000000000000000000000000000000000000000, 2154061990224116600000000000000000000000000000000000000000000000000000000000000000000000000000, 2153732542305579270000000000000000000000000000000000000000000000000000000000000000000000000000, 2153404856724376660000000000000000000000000000000000000000000000000000000000000000000000000000, 2153078848415898850000000000000000000000000000000000000000000000000000000000000000000000000000, 2152754438033033090000000000000000000000000000000000000000000000000000000000000000000000000000, 2152431551391236380000000000000000000000000000000000000000000000000000000000000000000000000000, 2152110118993216690000000000000000000000000000000000000000000000000000000000000000000000000000]
noncomputable def wS8 : List Nat := [1, 1, 1, 1, 1, 1, 1, 1, 1, 1, 1, 1, 1, 1, 1, 1, 1, 1, 1, 1, 1, 1, 1, 1, 1]
noncomputable def accS9 : List Nat := [2496085350381164060000000000000000000000000000000000000000000000000000000000000000000000000000, 2495434606201284590000000000000000000000000000000000000000000000000000000000000000000000000000, 2494587282522675650000000000000000000000000000000000000000000000000000000000000000000000000000, 2493807018921010140000000000000000000000000000000000000000000000000000000000000000000000000000, 2493109505810099860000000000000000000000000000000000000000000000000000000000000000000000000000, 2492474807113916800000000000000000000000000000000000000000000000000000000000000000000000000000, 2491885327125474600000000000000000000000000000000000000000000000000000000000000000000000000000, 2491329226046847990000000000000000000000000000000000000000000000000000000000000000000000000000, 2490798768709192960000000000000000000000000000000000000000000000000000000000000000000000000000, 2490288748939428470000000000000000000000000000000000000000000000000000000000000000000000000000, 2489795504342252650000000000000000000000000000000000000000000000000000000000000000000000000000, 2489316346888311260000000000000000000000000000000000000000000000000000000000000000000000000000, 2488849232383598530000000000000000000000000000000000000000000000000000000000000000000000000000, 2488392561665732300000000000000000000000000000000000000000000000000000000000000000000000000000, 2487945055372057950000000000000000000000000000000000000000000000000000000000000000000000000000, 2487505671322959420000000000000000000000000000000000000000000000000000000000000000000000000000, 2487073547735427290000000000000000000000000000000000000000000000000000000000000000000000000000, 2486647962832109430000000000000000000000000000000000000000000000000000000000000000000000000000, 2486228305290122280000000000000000000000000000000000000000000000000000000000000000000000000000, 2485814052175834060000000000000000000000000000000000000000000000000000000000000000000000000000, 2485404752112904860000000000000000000000000000000000000000000000000000000000000000000000000000, 2485000012300297620000000000000000000000000000000000000000000000000000000000000000000000000000, 2484599488330785250000000000000000000000000000000000000000000000000000000000000000000000000000, 2484202876141060950000000000000000000000000000000000000000000000000000000000000000000000000000, 2483809905575193620000000000000000000000000000000000000000000000000000000000000000000000000000, 2483420335185845970000000000000000000000000000000000000000000000000000000000000000000000000000, 2483033948018437080000000000000000000000000000000000000000000000000000000000000000000000000000, 2482650548141960440000000000000000000000000000000000000000000000000000000000000000000000000000, 2482269957792453750000000000000000000000000000000000000000000000000000000000000000000000000000, 2481892014999804210000000000000000000000000000000000000000000000000000000000000000000000000000, 2481516571602506700000000000000000000000000000000000000000000000000000000000000000000000000000, 2481143491573983400000000000000000000000000000000000000000000000000000000000000000000000000000, 2480772649608241830000000000000000000000000000000000000000000000000000000000000000000000000000, 2480403929916116600000000000000000000000000000000000000000000000000000000000000000000000000000, 2480037225195079270000000000000000000000000000000000000000000000000000000000000000000000000000, 2479672435746276660000000000000000000000000000000000000000000000000000000000000000000000000000, 2479309468700298850000000000000000000000000000000000000000000000000000000000000000000000000000, 2478948237362233090000000000000000000000000000000000000000000000000000000000000000000000000000, 2478588660622936380000000000000000000000000000000000000000000000000000000000000000000000000000, 2478230662454016690000000000000000000000000000000000000000000000000000000000000000000000000000]
noncomputable def wS9 : List Nat := [1, 1, 1, 1, 1, 1, 1, 1, 1, 1, 1, 1, 1, 1, 1, 1, 1, 1, 1, 1, 1, 1, 1, 1, 1]
noncomputable def accS10 : List Nat := [2817535895504564060000000000000000000000000000000000000000000000000000000000000000000000000000, 2816818062021684590000000000000000000000000000000000000000000000000000000000000000000000000000, 2815946469479975650000000000000000000000000000000000000000000000000000000000000000000000000000, 2815142316011810140000000000000000000000000000000000000000000000000000000000000000000000000000, 2814415878615999860000000000000000000000000000000000000000000000000000000000000000000000000000, 2813748165227116800000000000000000000000000000000000000000000000000000000000000000000000000000, 2813123074372674600000000000000000000000000000000000000000000000000000000000000000000000000000, 2812529897350947990000000000000000000000000000000000000000000000000000000000000000000000000000, 2811961645109892960000000000000000000000000000000000000000000000000000000000000000000000000000, 2811413579703828470000000000000000000000000000000000000000000000000000000000000000000000000000, 2810882324619652650000000000000000000000000000000000000000000000000000000000000000000000000000, 2810365362003811260000000000000000000000000000000000000000000000000000000000000000000000000000, 2809860745353898530000000000000000000000000000000000000000000000000000000000000000000000000000, 2809366928028132300000000000000000000000000000000000000000000000000000000000000000000000000000, 2808882655127457950000000000000000000000000000000000000000000000000000000000000000000000000000, 2808406891600959420000000000000000000000000000000000000000000000000000000000000000000000000000, 2807938772195627290000000000000000000000000000000000000000000000000000000000000000000000000000, 2807477565323909430000000000000000000000000000000000000000000000000000000000000000000000000000, 2807022646206222280000000000000000000000000000000000000000000000000000000000000000000000000000, 2806573476524534060000000000000000000000000000000000000000000000000000000000000000000000000000, 2806129588674104860000000000000000000000000000000000000000000000000000000000000000000000000000, 2805690573471397620000000000000000000000000000000000000000000000000000000000000000000000000000, 2805256070394585250000000000000000000000000000000000000000000000000000000000000000000000000000, 2804825759791260950000000000000000000000000000000000000000000000000000000000000000000000000000, 2804399356587593620000000000000000000000000000000000000000000000000000000000000000000000000000, 2803976605163845970000000000000000000000000000000000000000000000000000000000000000000000000000, 2803557275167137080000000000000000000000000000000000000000000000000000000000000000000000000000, 2803141158039560440000000000000000000000000000000000000000000000000000000000000000000000000000, 2802728064139353750000000000000000000000000000000000000000000000000000000000000000000000000000, 2802317820340004210000000000000000000000000000000000000000000000000000000000000000000000000000, 2801910268004806700000000000000000000000000000000000000000000000000000000000000000000000000000, 2801505261273283400000000000000000000000000000000000000000000000000000000000000000000000000000, 2801102665604541830000000000000000000000000000000000000000000000000000000000000000000000000000, 2800702356535616600000000000000000000000000000000000000000000000000000000000000000000000000000, 2800304218610079270000000000000000000000000000000000000000000000000000000000000000000000000000, 2799908144458876660000000000000000000000000000000000000000000000000000000000000000000000000000, 2799514033990898850000000000000000000000000000000000000000000000000000000000000000000000000000, 2799121793707333090000000000000000000000000000000000000000000000000000000000000000000000000000, 2798731336080236380000000000000000000000000000000000000000000000000000000000000000000000000000, 2798342579021816690000000000000000000000000000000000000000000000000000000000000000000000000000]
noncomputable def wS10 : List Nat := [1, 1, 1, 1, 1, 1, 1, 1, 1, 1, 1, 1, 1, 1, 1, 1, 1, 1, 1, 1, 1, 1, 1, 1, 1]
noncomputable def accS11 : List Nat := [3131458540247264060000000000000000000000000000000000000000000000000000000000000000000000000000, 3130677599665984590000000000000000000000000000000000000000000000000000000000000000000000000000, 3129784148666675650000000000000000000000000000000000000000000000000000000000000000000000000000, 3128958127622710140000000000000000000000000000000000000000000000000000000000000000000000000000, 3128204643801199860000000000000000000000000000000000000000000000000000000000000000000000000000, 3127505692764316800000000000000000000000000000000000000000000000000000000000000000000000000000, 3126846668579974600000000000000000000000000000000000000000000000000000000000000000000000000000, 3126217990647147990000000000000000000000000000000000000000000000000000000000000000000000000000, 3125613416679392960000000000000000000000000000000000000000000000000000000000000000000000000000, 3125028681188228470000000000000000000000000000000000000000000000000000000000000000000000000000, 3124460699807452650000000000000000000000000000000000000000000000000000000000000000000000000000, 3123907131885011260000000000000000000000000000000000000000000000000000000000000000000000000000, 3123366135634498530000000000000000000000000000000000000000000000000000000000000000000000000000, 3122836223578432300000000000000000000000000000000000000000000000000000000000000000000000000000, 3122316171398357950000000000000000000000000000000000000000000000000000000000000000000000000000, 3121804956726859420000000000000000000000000000000000000000000000000000000000000000000000000000, 3121301715866727290000000000000000000000000000000000000000000000000000000000000000000000000000, 3120805711958509430000000000000000000000000000000000000000000000000000000000000000000000000000, 3120316310872722280000000000000000000000000000000000000000000000000000000000000000000000000000, 3119832962629534060000000000000000000000000000000000000000000000000000000000000000000000000000, 3119355186778604860000000000000000000000000000000000000000000000000000000000000000000000000000, 3118882560835197620000000000000000000000000000000000000000000000000000000000000000000000000000, 3118414710978385250000000000000000000000000000000000000000000000000000000000000000000000000000, 3117951304542560950000000000000000000000000000000000000000000000000000000000000000000000000000, 3117492043900593620000000000000000000000000000000000000000000000000000000000000000000000000000, 3117036661433945970000000000000000000000000000000000000000000000000000000000000000000000000000, 3116584915392437080000000000000000000000000000000000000000000000000000000000000000000000000000, 3116136586438360440000000000000000000000000000000000000000000000000000000000000000000000000000, 3115691474762153750000000000000000000000000000000000000000000000000000000000000000000000000000, 3115249397663004210000000000000000000000000000000000000000000000000000000000000000000000000000, 3114810187497606700000000000000000000000000000000000000000000000000000000000000000000000000000, 3114373689937383400000000000000000000000000000000000000000000000000000000000000000000000000000, 3113939762479141830000000000000000000000000000000000000000000000000000000000000000000000000000, 3113508273172416600000000000000000000000000000000000000000000000000000000000000000000000000000, 3113079099516579270000000000000000000000000000000000000000000000000000000000000000000000000000, 3112652127509576660000000000000000000000000000000000000000000000000000000000000000000000000000, 3112227250812098850000000000000000000000000000000000000000000000000000000000000000000000000000, 3111804370034533090000000000000000000000000000000000000000000000000000000000000000000000000000, 3111383392089736380000000000000000000000000000000000000000000000000000000000000000000000000000, 3110964229639916690000000000000000000000000000000000000000000000000000000000000000000000000000]
noncomputable def wS11 : List Nat := [1, 1, 1, 1, 1, 1, 1, 1, 1, 1, 1, 1, 1, 1, 1, 1, 1, 1, 1, 1, 1, 1, 1, 1, 1]
noncomputable def accS12 : List Nat := [3434653819525464060000000000000000000000000000000000000000000000000000000000000000000000000000, 3433819397061984590000000000000000000000000000000000000000000000000000000000000000000000000000, 3432910935229575650000000000000000000000000000000000000000000000000000000000000000000000000000, 3432069001579610140000000000000000000000000000000000000000000000000000000000000000000000000000, 3431293975158899860000000000000000000000000000000000000000000000000000000000000000000000000000, 3430568956004716800000000000000000000000000000000000000000000000000000000000000000000000000000, 3429880865497674600000000000000000000000000000000000000000000000000000000000000000000000000000, 3429221262588747990000000000000000000000000000000000000000000000000000000000000000000000000000, 3428584662133392960000000000000000000000000000000000000000000000000000000000000000000000000000, 3427967284681728470000000000000000000000000000000000000000000000000000000000000000000000000000, 3427366354407352650000000000000000000000000000000000000000000000000000000000000000000000000000, 3426779725666111260000000000000000000000000000000000000000000000000000000000000000000000000000, 3426205679377598530000000000000000000000000000000000000000000000000000000000000000000000000000, 3425642804572232300000000000000000000000000000000000000000000000000000000000000000000000000000, 3425089923744657950000000000000000000000000000000000000000000000000000000000000000000000000000, 3424546042127659420000000000000000000000000000000000000000000000000000000000000000000000000000, 3424010311130427290000000000000000000000000000000000000000000000000000000000000000000000000000, 3423482000853309430000000000000000000000000000000000000000000000000000000000000000000000000000, 3422960478827622280000000000000000000000000000000000000000000000000000000000000000000000000000, 3422445193307834060000000000000000000000000000000000000000000000000000000000000000000000000000, 3421935659904604860000000000000000000000000000000000000000000000000000000000000000000000000000, 3421431450855497620000000000000000000000000000000000000000000000000000000000000000000000000000, 3420932186285485250000000000000000000000000000000000000000000000000000000000000000000000000000, 3420437527076160950000000000000000000000000000000000000000000000000000000000000000000000000000, 3419947169003093620000000000000000000000000000000000000000000000000000000000000000000000000000, 3419460837870545970000000000000000000000000000000000000000000000000000000000000000000000000000, 3418978285483137080000000000000000000000000000000000000000000000000000000000000000000000000000, 3418499286258760440000000000000000000000000000000000000000000000000000000000000000000000000000, 3418023634384553750000000000000000000000000000000000000000000000000000000000000000000000000000, 3417551141420504210000000000000000000000000000000000000000000000000000000000000000000000000000, 3417081634258306700000000000000000000000000000000000000000000000000000000000000000000000000000, 3416614953379283400000000000000000000000000000000000000000000000000000000000000000000000000000, 3416150951359141830000000000000000000000000000000000000000000000000000000000000000000000000000, 3415689491588116600000000000000000000000000000000000000000000000000000000000000000000000000000, 3415230447156879270000000000000000000000000000000000000000000000000000000000000000000000000000, 3414773699892576660000000000000000000000000000000000000000000000000000000000000000000000000000, 3414319139510498850000000000000000000000000000000000000000000000000000000000000000000000000000, 3413866662889233090000000000000000000000000000000000000000000000000000000000000000000000000000, 3413416173409936380000000000000000000000000000000000000000000000000000000000000000000000000000, 3412967580390716690000000000000000000000000000000000000000000000000000000000000000000000000000]
noncomputable def wS12 : List Nat := [1, 1, 1, 1, 1, 1, 1, 1, 1, 1, 1, 1, 1, 1, 1, 1, 1, 1, 1, 1, 1, 1, 1, 1, 1]
noncomputable def accS13 : List Nat := [3720313114245964060000000000000000000000000000000000000000000000000000000000000000000000000000, 3719449483404184590000000000000000000000000000000000000000000000000000000000000000000000000000, 3718545249430375650000000000000000000000000000000000000000000000000000000000000000000000000000, 3717704724882510140000000000000000000000000000000000000000000000000000000000000000000000000000, 3716924424573899860000000000000000000000000000000000000000000000000000000000000000000000000000, 3716188854428416800000000000000000000000000000000000000000000000000000000000000000000000000000, 3715486580020674600000000000000000000000000000000000000000000000000000000000000000000000000000, 3714810355637547990000000000000000000000000000000000000000000000000000000000000000000000000000, 3714155492792892960000000000000000000000000000000000000000000000000000000000000000000000000000, 3713518735120228470000000000000000000000000000000000000000000000000000000000000000000000000000, 3712897652442452650000000000000000000000000000000000000000000000000000000000000000000000000000, 3712290330631111260000000000000000000000000000000000000000000000000000000000000000000000000000, 3711695208155798530000000000000000000000000000000000000000000000000000000000000000000000000000, 3711110983012532300000000000000000000000000000000000000000000000000000000000000000000000000000, 3710536554256657950000000000000000000000000000000000000000000000000000000000000000000000000000, 3709970981717359420000000000000000000000000000000000000000000000000000000000000000000000000000, 3709413456273027290000000000000000000000000000000000000000000000000000000000000000000000000000, 3708863276918409430000000000000000000000000000000000000000000000000000000000000000000000000000, 3708319832582622280000000000000000000000000000000000000000000000000000000000000000000000000000, 3707782587529334060000000000000000000000000000000000000000000000000000000000000000000000000000, 3707251069460404860000000000000000000000000000000000000000000000000000000000000000000000000000, 3706724859824097620000000000000000000000000000000000000000000000000000000000000000000000000000, 3706203585816485250000000000000000000000000000000000000000000000000000000000000000000000000000, 3705686913787060950000000000000000000000000000000000000000000000000000000000000000000000000000, 3705174543766593620000000000000000000000000000000000000000000000000000000000000000000000000000, 3704666204891445970000000000000000000000000000000000000000000000000000000000000000000000000000, 3704161651590537080000000000000000000000000000000000000000000000000000000000000000000000000000, 3703660660358960440000000000000000000000000000000000000000000000000000000000000000000000000000, 3703163027036253750000000000000000000000000000000000000000000000000000000000000000000000000000, 3702668564502704210000000000000000000000000000000000000000000000000000000000000000000000000000, 3702177100710606700000000000000000000000000000000000000000000000000000000000000000000000000000, 3701688476994783400000000000000000000000000000000000000000000000000000000000000000000000000000, 3701202546622441830000000000000000000000000000000000000000000000000000000000000000000000000000, 3700719173543516600000000000000000000000000000000000000000000000000000000000000000000000000000, 3700238231305979270000000000000000000000000000000000000000000000000000000000000000000000000000, 3699759602109176660000000000000000000000000000000000000000000000000000000000000000000000000000, 3699283175974398850000000000000000000000000000000000000000000000000000000000000000000000000000, 3698808850030233090000000000000000000000000000000000000000000000000000000000000000000000000000, 3698336527865636380000000000000000000000000000000000000000000000000000000000000000000000000000, 3697866118968616690000000000000000000000000000000000000000000000000000000000000000000000000000]
noncomputable def wS13 : List Nat := [1, 1, 1, 1, 1, 1, 1, 1, 1, 1, 1, 1, 1, 1, 1, 1, 1, 1, 1, 1, 1, 1, 1, 1, 1]
noncomputable def accS14 : List Nat := [3978952042277444060000000000000000000000000000000000000000000000000000000000000000000000000000, 3978105241152334590000000000000000000000000000000000000000000000000000000000000000000000000000, 3977244356711505650000000000000000000000000000000000000000000000000000000000000000000000000000, 3976442127277690140000000000000000000000000000000000000000000000000000000000000000000000000000, 3975692342899729860000000000000000000000000000000000000000000000000000000000000000000000000000, 3974981221944736800000000000000000000000000000000000000000000000000000000000000000000000000000, 3974299056148054600000000000000000000000000000000000000000000000000000000000000000000000000000, 3973639823261717990000000000000000000000000000000000000000000000000000000000000000000000000000, 3972999656155032960000000000000000000000000000000000000000000000000000000000000000000000000000, 3972375853554678470000000000000000000000000000000000000000000000000000000000000000000000000000, 3971766369110202650000000000000000000000000000000000000000000000000000000000000000000000000000, 3971169561179551260000000000000000000000000000000000000000000000000000000000000000000000000000, 3970584066747288530000000000000000000000000000000000000000000000000000000000000000000000000000, 3970008731984372300000000000000000000000000000000000000000000000000000000000000000000000000000, 3969442569053317950000000000000000000000000000000000000000000000000000000000000000000000000000, 3968884725908149420000000000000000000000000000000000000000000000000000000000000000000000000000, 3968334463385397290000000000000000000000000000000000000000000000000000000000000000000000000000, 3967791136968199430000000000000000000000000000000000000000000000000000000000000000000000000000, 3967254181908322280000000000000000000000000000000000000000000000000000000000000000000000000000, 3966723100990964060000000000000000000000000000000000000000000000000000000000000000000000000000, 3966197454363864860000000000000000000000000000000000000000000000000000000000000000000000000000, 3965676851119537620000000000000000000000000000000000000000000000000000000000000000000000000000, 3965160942256125250000000000000000000000000000000000000000000000000000000000000000000000000000, 3964649414811930950000000000000000000000000000000000000000000000000000000000000000000000000000, 3964141986959293620000000000000000000000000000000000000000000000000000000000000000000000000000, 3963638403865755970000000000000000000000000000000000000000000000000000000000000000000000000000, 3963138434230207080000000000000000000000000000000000000000000000000000000000000000000000000000, 3962641867331690440000000000000000000000000000000000000000000000000000000000000000000000000000, 3962148510532533750000000000000000000000000000000000000000000000000000000000000000000000000000, 3961658187154364210000000000000000000000000000000000000000000000000000000000000000000000000000, 3961170734657416700000000000000000000000000000000000000000000000000000000000000000000000000000, 3960686003075863400000000000000000000000000000000000000000000000000000000000000000000000000000, 3960203853667111830000000000000000000000000000000000000000000000000000000000000000000000000000, 3959724157748896600000000000000000000000000000000000000000000000000000000000000000000000000000, 3959246795686659270000000000000000000000000000000000000000000000000000000000000000000000000000, 3958771656008336660000000000000000000000000000000000000000000000000000000000000000000000000000, 3958298634626768850000000000000000000000000000000000000000000000000000000000000000000000000000, 3957827634171183090000000000000000000000000000000000000000000000000000000000000000000000000000, 3957358563378146380000000000000000000000000000000000000000000000000000000000000000000000000000, 3956891336564326690000000000000000000000000000000000000000000000000000000000000000000000000000]
noncomputable def wS14 : List Nat := [1, 1, 1, 1, 1, 1, 1, 1, 1, 1, 1, 1, 1, 1, 1, 1, 1, 1, 1, 1, 1, 1, 1, 1, 1]
noncomputable def accS15 : List Nat := [4206380195558224060000000000000000000000000000000000000000000000000000000000000000000000000000, 4205609066890864590000000000000000000000000000000000000000000000000000000000000000000000000000, 4204846747307375650000000000000000000000000000000000000000000000000000000000000000000000000000, 4204138278548190140000000000000000000000000000000000000000000000000000000000000000000000000000, 4203475161729779860000000000000000000000000000000000000000000000000000000000000000000000000000, 4202845217645796800000000000000000000000000000000000000000000000000000000000000000000000000000, 4202240315093114600000000000000000000000000000000000000000000000000000000000000000000000000000, 4201655539752767990000000000000000000000000000000000000000000000000000000000000000000000000000, 4201087764509922960000000000000000000000000000000000000000000000000000000000000000000000000000, 4200534787463308470000000000000000000000000000000000000000000000000000000000000000000000000000, 4199994908426322650000000000000000000000000000000000000000000000000000000000000000000000000000, 4199466733114281260000000000000000000000000000000000000000000000000000000000000000000000000000, 4198949080547378530000000000000000000000000000000000000000000000000000000000000000000000000000, 4198440934533572300000000000000000000000000000000000000000000000000000000000000000000000000000, 4197941413854547950000000000000000000000000000000000000000000000000000000000000000000000000000, 4197449750840629420000000000000000000000000000000000000000000000000000000000000000000000000000, 4196965274362347290000000000000000000000000000000000000000000000000000000000000000000000000000, 4196487395657299430000000000000000000000000000000000000000000000000000000000000000000000000000, 4196015596312142280000000000000000000000000000000000000000000000000000000000000000000000000000, 4195549418082824060000000000000000000000000000000000000000000000000000000000000000000000000000, 4195088454227634860000000000000000000000000000000000000000000000000000000000000000000000000000, 4194632342209957620000000000000000000000000000000000000000000000000000000000000000000000000000, 4194180757505735250000000000000000000000000000000000000000000000000000000000000000000000000000, 4193733408387380950000000000000000000000000000000000000000000000000000000000000000000000000000, 4193290031522773620000000000000000000000000000000000000000000000000000000000000000000000000000, 4192850388232935970000000000000000000000000000000000000000000000000000000000000000000000000000, 4192414261344777080000000000000000000000000000000000000000000000000000000000000000000000000000, 4191981452494110440000000000000000000000000000000000000000000000000000000000000000000000000000, 4191551779836583750000000000000000000000000000000000000000000000000000000000000000000000000000, 4191125076094654210000000000000000000000000000000000000000000000000000000000000000000000000000, 4190701186879436700000000000000000000000000000000000000000000000000000000000000000000000000000, 4190279969246503400000000000000000000000000000000000000000000000000000000000000000000000000000, 4189861290447931830000000000000000000000000000000000000000000000000000000000000000000000000000, 4189445026858356600000000000000000000000000000000000000000000000000000000000000000000000000000, 4189031063039729270000000000000000000000000000000000000000000000000000000000000000000000000000, 4188619290924716660000000000000000000000000000000000000000000000000000000000000000000000000000, 4188209609100598850000000000000000000000000000000000000000000000000000000000000000000000000000, 4187801922195773090000000000000000000000000000000000000000000000000000000000000000000000000000, 4187396140320956380000000000000000000000000000000000000000000000000000000000000000000000000000, 4186992178588046690000000000000000000000000000000000000000000000000000000000000000000000000000]
noncomputable def wS15 : List Nat := [1, 1, 1, 1, 1, 1, 1, 1, 1, 1, 1, 1, 1, 1, 1, 1, 1, 1, 1, 1, 1, 1, 1, 1, 1]
noncomputable def accS16 : List Nat := [4429079925375404060000000000000000000000000000000000000000000000000000000000000000000000000000, 4428443900419434590000000000000000000000000000000000000000000000000000000000000000000000000000, 4427856614109305650000000000000000000000000000000000000000000000000000000000000000000000000000, 4427329133050860140000000000000000000000000000000000000000000000000000000000000000000000000000, 4426846179616519860000000000000000000000000000000000000000000000000000000000000000000000000000, 4426394322078646800000000000000000000000000000000000000000000000000000000000000000000000000000, 4425965314173754600000000000000000000000000000000000000000000000000000000000000000000000000000, 4425554282061357990000000000000000000000000000000000000000000000000000000000000000000000000000, 4425158076328502960000000000000000000000000000000000000000000000000000000000000000000000000000, 4424774390990868470000000000000000000000000000000000000000000000000000000000000000000000000000, 4424401367771792650000000000000000000000000000000000000000000000000000000000000000000000000000, 4424037430545341260000000000000000000000000000000000000000000000000000000000000000000000000000, 4423681214856408530000000000000000000000000000000000000000000000000000000000000000000000000000, 4423331533042612300000000000000000000000000000000000000000000000000000000000000000000000000000, 4422987351707497950000000000000000000000000000000000000000000000000000000000000000000000000000, 4422647773396539420000000000000000000000000000000000000000000000000000000000000000000000000000, 4422312020139627290000000000000000000000000000000000000000000000000000000000000000000000000000, 4421979418378409430000000000000000000000000000000000000000000000000000000000000000000000000000, 4421649385296562280000000000000000000000000000000000000000000000000000000000000000000000000000, 4421321416659584060000000000000000000000000000000000000000000000000000000000000000000000000000, 4420995076088004860000000000000000000000000000000000000000000000000000000000000000000000000000, 4420669985759867620000000000000000000000000000000000000000000000000000000000000000000000000000, 4420345818349805250000000000000000000000000000000000000000000000000000000000000000000000000000, 4420022290109990950000000000000000000000000000000000000000000000000000000000000000000000000000, 4419699154940563620000000000000000000000000000000000000000000000000000000000000000000000000000, 4419376199290145970000000000000000000000000000000000000000000000000000000000000000000000000000, 4419053237812637080000000000000000000000000000000000000000000000000000000000000000000000000000, 4418730109621490440000000000000000000000000000000000000000000000000000000000000000000000000000, 4418406675085263750000000000000000000000000000000000000000000000000000000000000000000000000000, 4418082813077034210000000000000000000000000000000000000000000000000000000000000000000000000000, 4417758418603646700000000000000000000000000000000000000000000000000000000000000000000000000000, 4417433400760523400000000000000000000000000000000000000000000000000000000000000000000000000000, 4417107680963271830000000000000000000000000000000000000000000000000000000000000000000000000000, 4416781191423316600000000000000000000000000000000000000000000000000000000000000000000000000000, 4416453873823379270000000000000000000000000000000000000000000000000000000000000000000000000000, 4416125678164896660000000000000000000000000000000000000000000000000000000000000000000000000000, 4415796561762028850000000000000000000000000000000000000000000000000000000000000000000000000000, 4415466488378243090000000000000000000000000000000000000000000000000000000000000000000000000000, 4415135427452756380000000000000000000000000000000000000000000000000000000000000000000000000000, 4414803353434616690000000000000000000000000000000000000000000000000000000000000000000000000000]
noncomputable def wS16 : List Nat := [1, 1, 1, 1, 1, 1, 1, 1, 1, 1, 1, 1, 1, 1, 1, 1, 1, 1, 1, 1, 1, 1, 1, 1, 1]
noncomputable def accS17 : List Nat := [4700885953835414060000000000000000000000000000000000000000000000000000000000000000000000000000, 4699135981658494590000000000000000000000000000000000000000000000000000000000000000000000000000, 4697458600581045650000000000000000000000000000000000000000000000000000000000000000000000000000, 4695842372931870140000000000000000000000000000000000000000000000000000000000000000000000000000, 4694275789682109860000000000000000000000000000000000000000000000000000000000000000000000000000, 4692751005026076800000000000000000000000000000000000000000000000000000000000000000000000000000, 4691263534008844600000000000000000000000000000000000000000000000000000000000000000000000000000, 4689810726322047990000000000000000000000000000000000000000000000000000000000000000000000000000, 4688390699814932960000000000000000000000000000000000000000000000000000000000000000000000000000, 4687001838359798470000000000000000000000000000000000000000000000000000000000000000000000000000, 4685642611638352650000000000000000000000000000000000000000000000000000000000000000000000000000, 4684311533517361260000000000000000000000000000000000000000000000000000000000000000000000000000, 4683007166986658530000000000000000000000000000000000000000000000000000000000000000000000000000, 4681728138169512300000000000000000000000000000000000000000000000000000000000000000000000000000, 4680473147211167950000000000000000000000000000000000000000000000000000000000000000000000000000, 4679240973687049420000000000000000000000000000000000000000000000000000000000000000000000000000, 4678030477451947290000000000000000000000000000000000000000000000000000000000000000000000000000, 4676840596391639430000000000000000000000000000000000000000000000000000000000000000000000000000, 4675670342365602280000000000000000000000000000000000000000000000000000000000000000000000000000, 4674518796285084060000000000000000000000000000000000000000000000000000000000000000000000000000, 4673385102858724860000000000000000000000000000000000000000000000000000000000000000000000000000, 4672268465424037620000000000000000000000000000000000000000000000000000000000000000000000000000, 4671168140997445250000000000000000000000000000000000000000000000000000000000000000000000000000, 4670083435678350950000000000000000000000000000000000000000000000000000000000000000000000000000, 4669013700438413620000000000000000000000000000000000000000000000000000000000000000000000000000, 4667958327273395970000000000000000000000000000000000000000000000000000000000000000000000000000, 4666916745747407080000000000000000000000000000000000000000000000000000000000000000000000000000, 4665888419849380440000000000000000000000000000000000000000000000000000000000000000000000000000, 4664872845174373750000000000000000000000000000000000000000000000000000000000000000000000000000, 4663869546385144210000000000000000000000000000000000000000000000000000000000000000000000000000, 4662878074923206700000000000000000000000000000000000000000000000000000000000000000000000000000, 4661898006943003400000000000000000000000000000000000000000000000000000000000000000000000000000, 4660928941442661830000000000000000000000000000000000000000000000000000000000000000000000000000, 4659970498581256600000000000000000000000000000000000000000000000000000000000000000000000000000, 4659022318150919270000000000000000000000000000000000000000000000000000000000000000000000000000, 4658084058187986660000000000000000000000000000000000000000000000000000000000000000000000000000, 4657155393705688850000000000000000000000000000000000000000000000000000000000000000000000000000, 4656236015555743090000000000000000000000000000000000000000000000000000000000000000000000000000, 4655325629368666380000000000000000000000000000000000000000000000000000000000000000000000000000, 4654423954594066690000000000000000000000000000000000000000000000000000000000000000000000000000]
noncomputable def wS17 : List Nat := [1, 1, 1, 1, 1, 1, 1, 1, 1, 1, 1, 1, 1, 1, 1, 1, 1, 1, 1, 1, 1, 1, 1, 1, 1]
noncomputable def accS18 : List Nat := [4752655738542508060000000000000000000000000000000000000000000000000000000000000000000000000000, 4752548498361026590000000000000000000000000000000000000000000000000000000000000000000000000000, 4752439997366152650000000000000000000000000000000000000000000000000000000000000000000000000000, 4752329751503281140000000000000000000000000000000000000000000000000000000000000000000000000000, 4752217068010745860000000000000000000000000000000000000000000000000000000000000000000000000000, 4752101415852706800000000000000000000000000000000000000000000000000000000000000000000000000000, 4751982537964293600000000000000000000000000000000000000000000000000000000000000000000000000000, 4751860356740587990000000000000000000000000000000000000000000000000000000000000000000000000000, 4751734860266946960000000000000000000000000000000000000000000000000000000000000000000000000000, 4751606036485908470000000000000000000000000000000000000000000000000000000000000000000000000000, 4751473849413476650000000000000000000000000000000000000000000000000000000000000000000000000000, 4751338237517835260000000000000000000000000000000000000000000000000000000000000000000000000000, 4751199120287938530000000000000000000000000000000000000000000000000000000000000000000000000000, 4751056406143859300000000000000000000000000000000000000000000000000000000000000000000000000000, 4750909999202553950000000000000000000000000000000000000000000000000000000000000000000000000000, 4750759804311151420000000000000000000000000000000000000000000000000000000000000000000000000000, 4750605730570619290000000000000000000000000000000000000000000000000000000000000000000000000000, 4750447693668571430000000000000000000000000000000000000000000000000000000000000000000000000000, 4750285617349625280000000000000000000000000000000000000000000000000000000000000000000000000000, 4750119434303479060000000000000000000000000000000000000000000000000000000000000000000000000000, 4749949086595637860000000000000000000000000000000000000000000000000000000000000000000000000000, 4749774525830425620000000000000000000000000000000000000000000000000000000000000000000000000000, 4749595713073643250000000000000000000000000000000000000000000000000000000000000000000000000000, 4749412618633062950000000000000000000000000000000000000000000000000000000000000000000000000000, 4749225221737129620000000000000000000000000000000000000000000000000000000000000000000000000000, 4749033510118094970000000000000000000000000000000000000000000000000000000000000000000000000000, 4748837479570777080000000000000000000000000000000000000000000000000000000000000000000000000000, 4748637133450883440000000000000000000000000000000000000000000000000000000000000000000000000000, 4748432482169309750000000000000000000000000000000000000000000000000000000000000000000000000000, 4748223542679812210000000000000000000000000000000000000000000000000000000000000000000000000000, 4748010337965743700000000000000000000000000000000000000000000000000000000000000000000000000000, 4747792896534782400000000000000000000000000000000000000000000000000000000000000000000000000000, 4747571251923427830000000000000000000000000000000000000000000000000000000000000000000000000000, 4747345442227614600000000000000000000000000000000000000000000000000000000000000000000000000000, 4747115509650563270000000000000000000000000000000000000000000000000000000000000000000000000000, 4746881500070476660000000000000000000000000000000000000000000000000000000000000000000000000000, 4746643462628293850000000000000000000000000000000000000000000000000000000000000000000000000000, 4746401449356157090000000000000000000000000000000000000000000000000000000000000000000000000000, 4746155514809085380000000000000000000000000000000000000000000000000000000000000000000000000000, 4745905715730866690000000000000000000000000000000000000000000000000000000000000000000000000000]
noncomputable def wS18 : List Nat := [1, 1, 1, 1, 1, 1, 1, 1, 1, 1, 1, 1, 1, 1, 1, 1, 1, 1, 1, 1, 1, 1, 1, 1, 1]
noncomputable def accS19 : List Nat := [4752833603200815459064728931501322079000000000000000000000000000000000000000000000000000000000, 4752833603200818928896754501920000000000000000000000000000000000000000000000000000000000000000, 4752833603201158681424352850000000000000000000000000000000000000000000000000000000000000000000, 4752833603199996884731797000000000000000000000000000000000000000000000000000000000000000000000, 4752833603197032545173760000000000000000000000000000000000000000000000000000000000000000000000, 4752833603166177076128600000000000000000000000000000000000000000000000000000000000000000000000, 4752833602963613200462000000000000000000000000000000000000000000000000000000000000000000000000, 4752833602101127612350000000000000000000000000000000000000000000000000000000000000000000000000, 4752833599367113462070000000000000000000000000000000000000000000000000000000000000000000000000, 4752833592358461677800000000000000000000000000000000000000000000000000000000000000000000000000, 4752833577039108092300000000000000000000000000000000000000000000000000000000000000000000000000, 4752833547407879278900000000000000000000000000000000000000000000000000000000000000000000000000, 4752833495323100048500000000000000000000000000000000000000000000000000000000000000000000000000, 4752833410466325973000000000000000000000000000000000000000000000000000000000000000000000000000, 4752833280454906473000000000000000000000000000000000000000000000000000000000000000000000000000, 4752833091021765303000000000000000000000000000000000000000000000000000000000000000000000000000, 4752832826270060371000000000000000000000000000000000000000000000000000000000000000000000000000, 4752832468940386048000000000000000000000000000000000000000000000000000000000000000000000000000, 4752832000671062658000000000000000000000000000000000000000000000000000000000000000000000000000, 4752831402265648240000000000000000000000000000000000000000000000000000000000000000000000000000, 4752830653903864250000000000000000000000000000000000000000000000000000000000000000000000000000, 4752829735355839310000000000000000000000000000000000000000000000000000000000000000000000000000, 4752828626138887890000000000000000000000000000000000000000000000000000000000000000000000000000, 4752827305654765520000000000000000000000000000000000000000000000000000000000000000000000000000, 4752825753306094970000000000000000000000000000000000000000000000000000000000000000000000000000, 4752823948568866630000000000000000000000000000000000000000000000000000000000000000000000000000, 4752821871071141280000000000000000000000000000000000000000000000000000000000000000000000000000, 4752819500626557350000000000000000000000000000000000000000000000000000000000000000000000000000, 4752816817267706320000000000000000000000000000000000000000000000000000000000000000000000000000, 4752813801268291860000000000000000000000000000000000000000000000000000000000000000000000000000, 4752810433153591690000000000000000000000000000000000000000000000000000000000000000000000000000, 4752806693703416960000000000000000000000000000000000000000000000000000000000000000000000000000, 4752802563946083430000000000000000000000000000000000000000000000000000000000000000000000000000, 4752798025157402200000000000000000000000000000000000000000000000000000000000000000000000000000, 4752793058854260170000000000000000000000000000000000000000000000000000000000000000000000000000, 4752787646784508860000000000000000000000000000000000000000000000000000000000000000000000000000, 4752781770912963550000000000000000000000000000000000000000000000000000000000000000000000000000, 4752775413424166790000000000000000000000000000000000000000000000000000000000000000000000000000, 4752768556704706480000000000000000000000000000000000000000000000000000000000000000000000000000, 4752761183336594290000000000000000000000000000000000000000000000000000000000000000000000000000]
noncomputable def wS19 : List Nat := [1, 1, 1, 1, 1, 1, 1, 1, 1, 1, 1, 1, 1, 1, 1, 1, 1, 1, 1, 1, 1, 1, 1, 1, 1]
noncomputable def accS20 : List Nat := [4752833603200815459064728948549773048507951982345306083246739881554147456563803703278755745000, 4752833603200818929048006429467922820595199910238332772304458487534000000000000000000000000000, 4752833603201159240228272345974265031535210200905557711000000000000000000000000000000000000000, 4752833603200084189222283972675210930266341939000000000000000000000000000000000000000000000000, 4752833603199784466650010476129694810449240000000000000000000000000000000000000000000000000000, 4752833603200479775966728946115788799730000000000000000000000000000000000000000000000000000000, 4752833603200726669543970806755384710000000000000000000000000000000000000000000000000000000000, 4752833603200022629850528918380534000000000000000000000000000000000000000000000000000000000000, 4752833603199997708677936924694800000000000000000000000000000000000000000000000000000000000000, 4752833603200578893842614724549000000000000000000000000000000000000000000000000000000000000000, 4752833603200971650277450661640000000000000000000000000000000000000000000000000000000000000000, 4752833603200037157532413246900000000000000000000000000000000000000000000000000000000000000000, 4752833603200650404856947734000000000000000000000000000000000000000000000000000000000000000000, 4752833603199880264244132380000000000000000000000000000000000000000000000000000000000000000000, 4752833603200699176108156500000000000000000000000000000000000000000000000000000000000000000000, 4752833603200310040748817000000000000000000000000000000000000000000000000000000000000000000000, 4752833603199331088376591000000000000000000000000000000000000000000000000000000000000000000000, 4752833603200334477151379000000000000000000000000000000000000000000000000000000000000000000000, 4752833603199453418895020000000000000000000000000000000000000000000000000000000000000000000000, 4752833603200913728476290000000000000000000000000000000000000000000000000000000000000000000000, 4752833603200141157661080000000000000000000000000000000000000000000000000000000000000000000000, 4752833603200012606884200000000000000000000000000000000000000000000000000000000000000000000000, 4752833603200719169112500000000000000000000000000000000000000000000000000000000000000000000000, 4752833603200171919596000000000000000000000000000000000000000000000000000000000000000000000000, 4752833603201260181297000000000000000000000000000000000000000000000000000000000000000000000000, 4752833603199751412219000000000000000000000000000000000000000000000000000000000000000000000000, 4752833603199564619709000000000000000000000000000000000000000000000000000000000000000000000000, 4752833603200633729325000000000000000000000000000000000000000000000000000000000000000000000000, 4752833603201229620717000000000000000000000000000000000000000000000000000000000000000000000000, 4752833603200754406630000000000000000000000000000000000000000000000000000000000000000000000000, 4752833603199962743600000000000000000000000000000000000000000000000000000000000000000000000000, 4752833603200591929950000000000000000000000000000000000000000000000000000000000000000000000000, 4752833603201040311950000000000000000000000000000000000000000000000000000000000000000000000000, 4752833603200542260160000000000000000000000000000000000000000000000000000000000000000000000000, 4752833603200135030310000000000000000000000000000000000000000000000000000000000000000000000000, 4752833603201112127750000000000000000000000000000000000000000000000000000000000000000000000000, 4752833603199959621590000000000000000000000000000000000000000000000000000000000000000000000000, 4752833603199810488000000000000000000000000000000000000000000000000000000000000000000000000000, 4752833603200745962800000000000000000000000000000000000000000000000000000000000000000000000000, 4752833603200118917300000000000000000000000000000000000000000000000000000000000000000000000000]
noncomputable def wS : List Nat :=
  wS0 ++ wS1 ++ wS2 ++ wS3 ++ wS4 ++ wS5 ++ wS6 ++ wS7 ++ wS8 ++ wS9 ++ wS10 ++ wS11 ++ wS12 ++ wS13 ++ wS14 ++ wS15 ++ wS16 ++ wS17 ++ wS18 ++ wS19

end TNS.Data
