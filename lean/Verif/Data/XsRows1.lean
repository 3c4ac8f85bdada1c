/-
Generated by scripts/gen_xs.py: for the energies of the grid (energy in 1e-9 keV, rounded
down; exp(-energy / 6400 keV) in units of 2^-96; weights of the three reactions).
-/

set_option autoImplicit false
set_option maxRecDepth 100000

namespace TNS.Data

def xsRows1 : List (Nat × Nat × Nat) := [
  (3986581073, 79178826398360480071791249422, 81346851418527420725681793556236351211147619410602541578784661726933155576656585318052986347917227914053631441129234154457301940797449808667624),
  (4014242490, 79178484180579002279803212277, 86739379376939204685771620547943807821595745304233559650541446785436337773435836460767062767192050276207306270839864607224349725397095185431458),
  (4042095839, 79178139589773663969899008949, 92296288489098422827839495758245028657922648850846626827464389265623828696029627626813800863571428627553370349846995216817617192084736230272442),
  (4070142453, 79177792609484211184826892161, 98021737269294714197902916672896217977189638651654661822736218171654284519481417820956247794489163346461410768631298647954795601346941311120047),
  (4098383671, 79177443223176665533998728803, 103919983730427023013175634309873436021171698393958810409581571131431184856547627521471220981242453104668576219936625678575628910340268951331954),
  (4126820845, 79177091414156730888070810530, 109995387741033466231401080251752199837481707512455260654364433272456663996936177469956602677756471250872342440104431382564622385663937271370980),
  (4155455334, 79176737165644030214129918192, 116252404473801738039720446135482687689787013059873506328726537805042600035904039036371538752118246458566909291800099065186949558054455505476403),
  (4184288507, 79176380460734998728714342741, 122695598431633289007934066237279228756546005814160938904768744896650379993690618936981576420388651987992556031431541865022186785925895308593035),
  (4213321743, 79176021282402891896734788505, 129575316620505154669644105432466632411390706670151627455111524375985912925192727149065048421952810898440846799570610183262325081286746578365316),
  (4242556430, 79175659613510164721098651055, 138600728649855548304639710310798249369732325685445126011537415042637449761052176112259911846097841136776511314239578575316434884223733126318102),
  (4271993966, 79175295436796108505911637318, 147903180079739502262871659671151993182047174812224487141762971742996006895948496099751874347187088399087150251165367588038912724068846605027235),
  (4301635758, 79174928734889230218525566558, 157489699865935615328507741290637394992530871174829862348631689925973283060534264750488347275677892956977491283092304271356712563465061309628297),
  (4331483223, 79174559490294889552217460235, 167367486356585472082594840684957295049915808034880490395030034571600412330906253087598150055992843368316475507786760409783510713737480588335265),
  (4361537789, 79174187685382936429021414732, 177543900866722925587004991323112520350761528921434745436117964241233000106085072737469558966993009673431221134119103041187723345107574768294160),
  (4391800892, 79173813302424832585343746223, 188026478229089559224776250556832308334741838655037832858676819885684635739924361523709905662616088161849477097567378364616263755500226203225154),
  (4422273980, 79173436323544176256875838612, 198822929211890775265987749568828033509701146230481141292578123215269304252308110025440681341424087924537178963004634002978157457661762899843284),
  (4452958509, 79173056730766194696109337430, 209941146509385658659434842680367027420242337218485364039034424770443030354769382248984294892718670767511364645368932551320070327827325808273741),
  (4483855948, 79172674505955898796651620587, 221389200280200678824310248750815907100780542969686152178040660362119025384347803684815624800935233170856133626297084325878173705690302059216437),
  (4514967772, 79172289630904687654701234461, 233700528562308961498575012804908465192325805856639324197633855137085835197981449859418238051736322625648308392704878960300212492144839201985009),
  (4546295469, 79171902087243762173511968930, 249198567366945357846692626461439090079531435877636424175489294911178183421365848636188511670527718524641749696992511835978025922280820995121659),
  (4577840538, 79171511856468876246565245462, 265169057801990705132631933671641659189335681799629368179573419154621049397130974269674788993971502115586163867872666683782492042873880140221324),
  (4609604486, 79171118919977457815573651382, 281623958171660592260263631165357987891486701320541490044457473338842832813650383027175070261643374312940709157452425511552596351303311301200122),
  (4641588833, 79170723259006765524412149517, 298575506664927626562610044844988183713254610350863044542716086673274475506742532059217713017251783779897069734020044522906243890187048560418524),
  (4673795107, 79170324854695750967781148864, 316036225110564776690541011533109469049098614170250327536131753330942478267740258565229680184736510778106624868127085801606359339637401085198926),
  (4706224849, 79169923688023216181449461408, 334018932615466721342523994326245570653785224135503664568972362986470912811422130882644824856116784374983603303273819634186005396125111566974863),
  (4738879609, 79169519739857305259694753497, 352536735073528191051024178527569266563637572979623780862556020949722803166750570687463295996892434129413747727412215404569729973884166897818233),
  (4771760948, 79169112990930773534209021589, 371603058216390565782996436207552359216216532586863597233467163301064892164855851829082905978770503471711192638635438512923557660895899722142071),
  (4804870439, 79168703421828627735978236452, 391231629065536692445542803024461423697651002570890045235320619799287489297134563892332148040059678147605093557544707304032979157246126575034854),
  (4838209664, 79168291013025246845054568601, 415570480265751715170795109330282471450672679811268680565539242459655822126624567968824436088640597995641068578059000123044153226240376002163771),
  (4871780218, 79167875744834912035531681550, 441411697238505610360895091440290894824123075294480201767819340033057676733074316302620381434600795131898926567697222869094165807466762934357857),
  (4905583706, 79167457597448927703595649091, 468033104865083441481050182550616048896734203709707527446117746741764557011374734277872867660384222110546255184820654742633405916830927240370099),
  (4939621743, 79167036550935631899416023118, 495454388214387677103609793259706371107699644812326251355939912263906249094974195899622445844846426644206942192170752963714994576571353264185338),
  (4973895958, 79166612585190927743468082182, 523695686514020559527341728711095469465618980177804142984042187249987478054309067412962437984268774689096664643946526090114124021886929108521649),
  (5008407989, 79166185680000144010744218401, 552777597811504832232790931186182946093136799176661881071089820392926953746646584870788650035993196859409713875546320005200469205352571118150318),
  (5043159487, 79165755814988567003080463546, 582721198479776342875311684209870866771047586830312974792154329346872013145033970764108271364397527162692901314270580247687403742200439637159452),
  (5078152112, 79165322969670930812208448744, 613548059283172464555975235204788517818333221474958436919610163468386384919817770005735661857815812838657441116902460843537457161900629786857285),
  (5113387538, 79164887123389580468838867197, 645932524463231612413881058204874276333993502108974412289346767222343424771789574082049206878174332229247259733589215146593478099106819280577096),
  (5148867450, 79164448255351592825356030128, 685528355467882412737050703596504522793406225347314670062289998549042522592217293786379848283291306847981766652785531676900210576213103377574824),
  (5184593543, 79164006344641157596418093320, 726316993835872061833606601492327124591892717367531235885463277760939376593798497822987705335087513064780501629919090480496409819914086522346225),
  (5220567527, 79163561370157742276418371444, 768328511515728285139473978976202395134400890883252041202304061116273206752089002992397514500097882460568815350194510347820049017445565267815544),
  (5256791122, 79163113310677951648605656167, 811593624227793357769822778338742633064232970239077042849144455550218885089205048248731554087666373991021661549761644712001880475807303236661272),
  (5293266058, 79162662144855539513943632353, 856143810207538298136963405332419088457657628192976893010199743841369181872106549980294709300215759680616638476213039384811349512207483708218064),
  (5329994080, 79162207851159575074550767023, 902011307381087307144906981233280890078415972951566812244830214260222625927630129084438762077344415925457444453940459815567249775235368795436813),
  (5366976945, 79161750407911563780040852872, 949229042206003541434467698378152222152982713352708784341476143855577047500475328689189448357291690691473839474799390457060403683911318354737444),
  (5404216420, 79161289793310198095812388567, 997830723220462245189192075673497332275757220473617005736771280302856780989105849252550919378937494265764494491608423072324450020466381708191286),
  (5441714286, 79160825985381894275615946302, 1055813154505965045009397096744452170155657168524926393485444841787244780827923229043592456712546523172488690756898019098136349733494120796099720),
  (5479472336, 79160358962005543856619067830, 1117009604966000858386837363433873862378488482585765446826717088017518140319257011873805874869021053722112592949039768531082369524512327871481032),
  (5517492376, 79159888700900158241081853013, 1180032766258710391323176541242888480722913340953542403398577557733626265361697597420727704696225085316424609438323657653900024871248813003202940),
  (5555776222, 79159415179661988509031816588, 1244928512026713741154940243578214147446682093523267338195969949783377865171850576398573892946756978704782311473083764721445667980799683506192740),
  (5594325706, 79158938375690326794571343221, 1311743787233773150521604256693367187494624637904685300639773631712423700855410477017034379289095763864291989331136834431972972554903953974135252),
  (5633142670, 79158458266261732612131715908, 1380526604763847751619611734478180967635796491213116841696216470895833049036434533782377528485276863142057624201805995204452759035542776759992180),
  (5672228971, 79157974828468203882264309946, 1451326128118402208776289562058774917581749900687663305119470760737346654501462721184612350178291141632538205609053167410317962483595666955039727),
  (5711586478, 79157488039254297242274016884, 1524688383133984131068918213339451798511316298229677946665271858587554282923195308237161060464189247359685884208073168217472928484285629132593678),
  (5751217071, 79156997875429510600187550824, 1612237855265970050472335996975288745831060319586170990643087618289495067564615387235946272915842376390390205883946273011016393868913166978250597),
  (5791122647, 79156504313594087961165757917, 1702396575413709824503211968967953348565197939925354727931288389381240470617050493184915160222185351515938163423544291689303628071133561841418894),
  (5831305113, 79156007330225612844584157073, 1795229963038945944723373054578648357868114459838526103882621587532173487567039571939831276036018499309313056859852504188661403971348088006401926),
  (5871766390, 79155506901629550094654594018, 1890805040695019046875756168105148572840474101879046079765895676670221619071059683028979536164066432562052949078653627564876143897609319428410683),
  (5912508413, 79155003003939261607902543389, 1989190365753834653086229245388638977173338961542766691366569762386030113071437546485007692540927948628896377494194183830840057098597561367308641),
  (5953533130, 79154495613128390134978120428, 2090456082278791140014281962855519825841678659926676424325606019750998718997833547934742084535934006558393228167237639589393598081936883056699879),
  (5994842503, 79153984704998507169483855798, 2194673930963716680486757414798474085349566189349410600574789184616613961214486306151463757972893148828426965328608549998465958491992522609926948),
  (6036438506, 79153470255203864688026200551, 2312182055159224514190183530887968201143568390864200371278441132211816537344109784014243833314721484167124326761598889654008730460826219363100739),
  (6078323128, 79152952239214307864864486473, 2439157234071306584423197509693279419854007430779618928093032353625255208004873232656146782558401994066917558330661087530172167565908779456326391),
  (6120498372, 79152430632327659697563812236, 2569887210606732416623339437665303065624365236475273249379718986816449673049812259868773652328604107981000043150001184355204271707172834286401310),
  (6162966255, 79151905409669737856892461772, 2704465856716497304257700569630451158196056817324680348919238380468767550427811000870056944588076591338014091180041748366751493145633365804726670),
  (6205728806, 79151376546219106537236306992, 2842989335313393935846230586732315435200511181807440082601182773645412605122220667407793939631534443769493645091672980795439834569429735584880403),
  (6248788072, 79150844016732888950741189137, 2985555950035888352830848972760904096093495455526668381523309598937442638780194832852248474031561886615256639446409836382450119193815824477011488),
  (6292146109, 79150307795858091553440866686, 3132266290722776618923589466946443990682152986501310917842511834592819760830879481069529175465758824850764219773561433960271873716920345683257936),
  (6335804992, 79149767858007948078089077410, 3295332074312819166284479892296713076029189265519431537302659928951635498898052833628259467799678315439623108415454375243728130831967142302539724),
  (6379766808, 79149224177448508950024040873, 3471725634523150415486839862703178874589446498855580539676457781225445833022761355622089125072035377661174473793265519478851254636779496151011431),
  (6424033659, 79148676728261557551883327782, 3653310994345179453377857285075928804888807976791849526877652534923281435686737106194871682243526635005265420814656131370572544803660599570132232),
  (6468607661, 79148125484356995806407176831, 3840217816063973322296617418496369532687651193150513761355915932248572863339868822945967416068396192136947939880045565420844697262480666604503904),
  (6513490946, 79147570419448129033075684026, 4032578725169172460631384412310518761643957717401211047015372716658911617515618870678891420983787308849647237915778768689591738574150357942318442),
  (6558685659, 79147011507088785666401190746, 4230529448327692842664967652300107164704710549373100671453726268486317299736936292841987901495581179841931862208494076938536113100254523308647338),
  (6604193962, 79146448720623869194209950783, 4434208855117428475010746668786392103930891310913020369034827117635554495067774880544687939828515432888689420914018955671747412684750997399866010),
  (6650018030, 79145882033238844779535281377, 4666182420979991602229569915110855484872817747350127455734409704084253845022960882209056934000975188619022411775430650677603765280274043059239591),
  (6696160054, 79145311417922658803036526093, 4908275907343031951092904116214353722118346946258016618709239869852239126828326373217866717454345949424532567734994905485384689914129391398025168),
  (6742622241, 79144736847467759326897646326, 5157453112763901355636582450570431961088457325487217849055060190609849833018490251142422412456594461975448816821063585746319082421029755079771333),
  (6789406812, 79144158294494849348203548262, 5413890454495222757535968593224928650343016249112501883827213157948801248853673593012485100574249316498555657547720799673640708278781912406133429),
  (6836516004, 79143575731428174467557997645, 5677768481199036340133292294325709875955659730913756322210991353751856065875464367028481724492975605188199457742431399710178494020979623163576970),
  (6883952069, 79142989130507910159570900638, 5949271968055716923941568862867649005298480916889500230661857533216308003272137725065889407652328257305157706916731375508652505318035463480511094),
  (6931717276, 79142398463765450737308686056, 6242774579140449223132547597956669683461243015701568337111216350504260810319093335066361206245296909532950915710354179758631953773906122171081497),
  (6979813907, 79141803703072895112707903329, 6562149819238295902928897814960506646569284754273077663813153947398009986831446323760289646349039338380056338780986454201255411366830667350737316),
  (7028244264, 79141204820056506626811009736, 6890844690970627951474509590959748976542323427667624666046605579153145964843618549298854351620340279289298740499728552791850850853171241865967498),
  (7077010661, 79140601786195662847958295772, 7229090944667459244233501246861877207386206469693840998104831950562695333378976273856155752357179232078730043963314035940644623270535993126934884),
  (7126115430, 79139994572748682373429167759, 7577125901023556522564135283079760187999450452852385150697578069311526070571927674049570375376529580756313236997883795926401530477957728990813719),
  (7175560918, 79139383150789945047770927143, 7935192434053230013783354255229009359388671096389565730745156650832895534968769614809201388150908999794854574255014218409142735085322999840804591),
  (7225349491, 79138767491160452703982351649, 8315117701717487000663450620691334963703711549799820141556878951112051833266305849962079781427878510406668792563326392697147719582035935056390667),
  (7275483529, 79138147564529680503609866637, 8732504104261380190634163700206227818666004351692957076898218075699025783292873358361208625462518546549614680718552829583592031313863280506056406),
  (7325965428, 79137523341370868981471302396, 9162024341881230217852579998844977560661594641724662339640575507199319049552513656539689328731279174083599260173000464280089361577949966331529799),
  (7376797602, 79136894791936317518077932103, 9603980036184405210685809850617563086751359877143237193408111119102892248780097213566786349042191756984222817217119403010721177099071398968748300),
  (7427982482, 79136261886269774393344762235, 10058679592100098744106330653996220166762650446131038997778586005099494498715021019259820156705640500921964944806276943560123548503508598659239872),
  (7479522515, 79135624594218826537816818774, 10526438506310166884449203755710066064292924062067770135343710087272716322735529038904382885555569656913632027040713038758541382417462058268532535),
  (7531420165, 79134982885422559287701352589, 11026090243566506530933823555841209558281482623697225521229542088011066547111201407859826185924702465303822461837825614273773285707433038281919439),
  (7583677914, 79134336729299217025595819005, 11566990035239993628131558744642878133216003224763959011612241135335862646904524710963514037958587269895957166590422196741318759646958813316695276),
  (7636298261, 79133686095058594001149042298, 12123541173759969770898546235864546957708341861780695275265090813216538971257236776541073120609398529945695559815467804305787881620415077892634381),
  (7689283720, 79133030951726789380063955092, 12696131903510604898225524077993136601149935774749721340427207786342810529963924706037739804730485244165159074667407444256684336400227537154929596),
  (7742636826, 79132371268072045890934130644, 13285159589121200337659664033129521273832899332247823861301391600545903118710620942779667557928454680422539254953290237987532265348763164717562541),
  (7796360130, 79131707012666600110204991259, 13891030243648862215309909130103851905760288251462571978296367390385565431894524590638049948593438876426315430017858868836089434377391757617662487),
  (7850456200, 79131038153874344611122596068, 14553912909663461181664252799285121347251272619604989514721232524599030566426393092969197922554860851880663140446108848460000219194692627759753738),
  (7904927622, 79130364659838491040893067771, 15249550378717541841976110791685838114459334232381881646377296228185251760840289015853014003789984410981489719856750487808268011075990570021369263),
  (7959777002, 79129686498456870130600166446, 15965207844866823869248051112198146989246522191129455807586428898795015832401141034223968664383381066530327882352025262711406623644781151525408427),
  (8015006961, 79129003637443780657669112550, 16701380623874880006883654304877901580333059441003945665731935548874578928326008834324988647577346696080241357749382271245306043734817430792424072),
  (8070620141, 79128316044255833741809863289, 17458575611739099889642509619448851520874701317943869094175787261121154185218684887872382342621897804470327348970572102832131125952768666929044034),
  (8126619200, 79127623686153801936137645797, 18255523931002361095664770229145801464925214826015068046377198037560228402948704274674749060992258678172290297936775255405840310651316762745728211),
  (8183006815, 79126926530165556759776988015, 19119239811329304498920560734610784067447017042583118544085248378231037441035694596295213003042430777503795577202961716789931954797782448816885243),
  (8239785684, 79126224543061371992085333864, 20007758866665302494904426231349003739046437686440100259257114821376188224511319971502707720330059639324279754858590846879420812317004081663997872),
  (8296958520, 79125517691428135541097622914, 20921694155767502458556106786953725833723929931392776990514392029288690690884663383578299572664681573099944278292540241716327910169421484993026577),
  (8354528058, 79124805941582835424457970057, 21861673056347511577185298688505668728190602312999139865009561368219034545476468811285995460708604572201965276588240839635349056103965736823059022),
  (8412497049, 79124089259646771572499455828, 22831366101894804525193854914339167152469942987484173165063107865860560979105386557270151009970974472929448122625840425702317699435467160730338047),
  (8470868266, 79123367611471407654604896132, 23897201766704845023525463776920509053299543243446893131571939707239320809915028973675024125521737932360113757380462343398269796899511751787511882),
  (8529644499, 79122640962700219362685184584, 24993556061463770208778515360665499312704108695758177154052320925253798848180466510311699328907776946221710877792335912414373433614089605986593302),
  (8588828559, 79121909278719274484293995372, 26121182598121074140430747003139060118431376778078257612031685323813569761357983901391946435880156483540018988354543991414678217304900944898495219),
  (8648423275, 79121172524694354870048776722, 27280852288809331442700647235613708561804578373433534757969627904850312225474028444166537530069564468397438612475383853140773543510608725490136393),
  (8708431497, 79120430665533901310902773817, 28473354003136524238479409490063894088577167229255049675604568853042854652166162506464805772845362270290091672037883253719736256077841639704413835),
  (8768856094, 79119683665913773137132027993, 29779390214148479330011339312073402745170229840197742363874351347084871557105200536079852830230584760007655535110787772821815972358074112586318833),
  (8829699955, 79118931490264919815590389434, 31124851730142369318074434838329581939026305314895834180620157949028018411920803776718653170200837497635246885619067658396110519100876216937549518),
  (8890965989, 79118174102773415859055169612, 32508558815062955630201898417286135772669905556106363314276865964491843010904287199908391224551376428932301773816655774792856021647517195322967103),
  (8952657125, 79117411467380496138876801671, 33931453379281358503537201699012643452426181262952776185519024838943255141484114383294245875192088370652864194023843057552485103842678752745052743),
  (9014776314, 79116643547757867653713847161, 35401505376601485530597005015078086408339036021761277089709641930551006267655693065113660281172649745689661096601959135224364254748773459973197990),
  (9077326525, 79115870307357194287617144883, 36998823333367835042250480596156621858818705949566196313380748607614316552143434720666926508209801500102892776349011564497683924510795615892550939),
  (9140310748, 79115091709373046956980737977, 38641532466644436102053962150721166730746986801499544421022382623776562120772672044172460612998344424391785060911060191055463246875967859927787844),
  (9203731996, 79114307716718217967018289332, 40330750227438557957544670899672045427026714023605663935150590901389852287315825652064306033363021127000392760955114191794949567289473259630723692),
  (9267593301, 79113518292073206207557833002, 42067618691770992901292216799808158229601384080683924124703799677525865798321613581988512998363273323424433491790753656354539166720124195898053482),
  (9331897715, 79112723397873893018441885157, 43888431059640957811299889967600492331900553877483013460341690291739107477696802459624487275687493752299716246275220817326709457755851705073796255),
  (9396648314, 79111922996262135510049912731, 45829931071589771558389381946427198071537435536415499621569319387229803533406679526432675542789556531045336535269330864199680189628083024302012351),
  (9461848194, 79111117049135252237951721522, 47826351892486134310521066097810891649115303747309506465425373368827534834475710597873851668711023699203557441660625617009297915066889897354498664),
  (9527500472, 79110305518133701400103269233, 49879042736778411544268752440160406546498843049385406344226633043772863048954781305980081760736677195695028588065675261139648284457394053038309388),
  (9593608287, 79109488364628760244356653682, 51989383744889932701860360548813610196617290278565639917982749679432660355666974652476629114773757193272362772805942639332734423915236834495393171),
  (9660174799, 79108665549734927167005740552, 54246379852334768661586266652191432220495928071638080408043647317864665248704717305932026397079060301362600005708847305992705478627232627001187907),
  (9727203192, 79107837034272881115875926976, 56596154512684407033041635695510824650885161329074241893226770795475114655808072441841997257194039361963066366864660728687167521081766787903830422),
  (9794696670, 79107002778818967094662495308, 59012069878143305456408758164710335632879364824380374258796799676875122151018828769268641868993143446190473897409552847518986571077241181006668041),
  (9862658461, 79106162743655796329421482295, 61495747221475301945124742678292841533163032197061662592776556081443540309192278283093645475002146350741521148663970487206404956539371163066795455),
  (9931091813, 79105316888821731719425802747, 64088215289928861308648344497524188550136536282060103920249598043861285017593174530624459067331390671046816753704264635589477439236234452716002815),
  (10000000000, 79104465174036769892793209377, 66843393387856536830907424378512071541608023580253316645795831966506476751939659617340164542644825329266996153726237550856044733397326673403374734),
  (10069386314, 79103607558801467703168041500, 69675982199105636537856488688372730594481495116079694851776194549746188279551044825982345440139283028086103592309749700934434999576608072823938746),
  (10139254075, 79102744002273386345563320000, 72587879255041663749680580988839319884040178264521557261386469560463243600197621351899723807851056525608247885204722079803092513741518666044217913),
  (10209606623, 79101874463366018102961405015, 75581022314066660950649547495950952967006021230757249144117906109612230049869457161493418699543394286678012602488456283301052928693728288841903726),
  (10280447320, 79100998900724111817462779882, 78799527070034916193056652384334503263428612581003860853479084249992802056878224864636456531305685116846112465811745453959904575329856676912400170),
  (10351779556, 79100117272649562935778868978, 82109062334099563111988583293328363117175870513236828694185582154718515213213384956718054763787657388697428114346761381346659158333615229365525321),
  (10423606739, 79099229537225057149772592285, 85511053271003623563347189716096024331476516626327206080355774112291097377352647655082598344747126506254308433648840457910685930841367939261137104),
  (10495932305, 79098335652190523977050126621, 89007760248514574275964900113053763093558488712915462228819541809140673208505994029060606801862030433810088562446088057545794695260055189947039855),
  (10568759711, 79097435575029701823422180903, 92727554057210051796378984511497108318260138542519203467472694988700773377705537177366318972262921960578926710041271497807039439566970890283693821),
  (10642092440, 79096529262908391735955786697, 96581949956592778992117110600286932445724247379227575280651391291591046672504642971584703543943769767834647125563450631731874508339326430175052852),
  (10715933998, 79095616672711585488741949919, 100543744194514470543330508865676466603130895937075902404276850848496265173177663792674342336723258870987624323265941076109215606851928182805740751),
  (10790287915, 79094697761031157511176764908, 104615558493175298969484585800944374022112204897437609572529079347985939916208591163364744596688300439405055544373951002252836556729708805301002458),
  (10865157746, 79093772484153558258075356765, 108925545163068052147689117712885125784879895069795467194662780455230016595018454961216854250791525380757318647295605297050405994988367509888386857),
  (10940547072, 79092840798047509048058673473, 113401134033924039431849530004808130091752074936828597939835201599796644182085362845286567045931571059587226842814116478540484515000445890507047965),
  (11016459496, 79091902658413488946026955083, 118001063854529807394427390114590794884404730629130259797668661715283627270931065981650287469265151809825847961001880112562416677734431540785945957),
  (11092898648, 79090958020621997080351608788, 122728368237767316142770434221333015567852906457801059740290989063662757055525182139584183118897815761381466648722145520311471889297798896700608597),
  (11169868184, 79090006839725966881878990828, 127730193387135692925984680777886183753264305518181962006501939371499768236398249627084972269074222899728316159014431011100722722565325207236287935),
  (11247371783, 79089049070497895417114849668, 132912698596416695414073554215024363334769593982942854710153816146677811318287342445717476729042966805895225185720754959298575638899882387764285647),
  (11325413151, 79088084667380468071711162457, 138238718377708406712314585066298654169426140183611677104513332474213143838236324728692066688628676865086446926997324993817941596583515955577373089),
  (11403996019, 79087113584511331659204389947, 143711747028217031659363632084968407499801100453665019051389131963450212701782088782836091486831807649105291263212671593482316613855658266094827560),
  (11483124145, 79086135775698437544930648651, 149521005570233993628427652348709149390793110372392102313297954854270151508250596994193872956806231164999275064446715245096272904960575500594961923),
  (11562801312, 79085151194444815493927865937, 155506540418266062628633778816871517157715702234487978490058124494879987872927249918789904177790611065118780319287457391316390681930421967730287579),
  (11643031329, 79084159793936275656677939022, 161657243336165291474903803250710706043325664700796909439707620542100149450454994455045968465707822510142958195288394016672656298785428975426562275),
  (11723818032, 79083161527029112161966718971, 168013579862788699130981238168510781388865113412479367000059544952125319528694632560732433845973399079568708466127421873028121830535547956329882087),
  (11805165285, 79082156346237808345885663562, 174724829486832164449548121537426419324392867132619165414190459454457357352165538643819417480179258839416584707999742374725626125052239693985095407),
  (11887076977, 79081144203772169361584833324, 181621165456365629068183902509470821569779100210976234297519546146872494790733680196968211964496188992650425354943101543198781125475399532918462266),
  (11969557023, 79080125051525027584618861523, 188707087656368294436573368301563888369421236964439037427026639956612881753314374568966333547517175318131088243320201033352017590192450516085607347),
  (12052609368, 79079098841022881350529676640, 196105260234088727380609506779635654109758901957628208486478644616625411893267119192721113435267183593439799444787409452520408668635327769641138174),
  (12136237983, 79078065523475385870186650116, 203820852212613939661305147101358002254246548940977622120613438656379377780734455746714593383748097537402753295166615125778556948202961501904520097),
  (12220446866, 79077025049763062112349163819, 211748369547115746069380441082639583734846910026449649783224933560810518010379235699538513148786846228056841688056749333577200990963088556424763732),
  (12305240043, 79075977370425007403637847855, 219892955033423895576128650023456856062480117517953931093919423628611126174869219360511099740592865094551877455494321027697326095264358617007798142),
  (12390621569, 79074922435646607776633303256, 228494316121983773217880196813051510941553968309813874351095004068264382901538678069793689607992875005580145466698226303022410310227141200930118443),
  (12476595526, 79073860195284317969269799904, 237345692155857690128013520683222786754413979740333866654116840870236551283041975097606508919217221571145558985628833158053285156570833601415779794),
  (12563166024, 79072790598853374856413989388, 246439163825261986762955450979300301370127323904174321806628516897747722070396710788929384729737306737291277125545523856825568880893731435888800036),
  (12650337203, 79071713595503157717317984220, 255901756714211103235443287106146565314062318435358660894695158568242240792594252737040403819198531814011449438209936835994663201449144298613570329),
  (12738113231, 79070629134041970485935405121, 265766156284441454712490035444251176824536785063908874143722476045199649594863495909017102144711026675265917748341026136318082188735682031956142955),
  (12826498305, 79069537162924758957441574208, 275899990797431739963559384837489145047651356161949637524722428415688714120722727456792523471918300493146503705578704127173890805728126642288362975),
  (12915496650, 79068437630265538734398205694, 286326810616105448014311141617372431219841766085614474047207688749035377164002075365875193918590856999879097544425094893838972658939693545407801650),
  (13005112521, 79067330483812760171531599104, 297300999703224402184776697554272244477342548872506614729709354519540571177168218877613182669660128730645589190753749902309453580935892429239124073),
  (13095350204, 79066215670937030344890715962, 308574461612108955353012040998468631036856834218202368284110753613697574431646056529280186891007387721531824994798624496406927631930804284253236761),
  (13186214013, 79065093138668252638595020156, 320154432426573907950828259801911234440704247572454244898123653026504705571920833605984222247742126916018731854779351286955325043916509367674600241),
  (13277708293, 79063962833658641596210315254, 332267336073846157030300522950564379052420702805106522248085832441870148920680639655717699533502259160056628947300008111090181631119379587701275920),
  (13369837418, 79062824702207509667553362967, 344787915309797312551411686163851390071806196954820770126243486224492974325255586982633847533837551677033613731276250648963823235551158898101332425),
  (13462605792, 79061678690248992570956105949, 357648306996445726271248815749973668107126661965948272231904966745659400362270232411795570183354194943487991902121044139698699272804411804464209383),
  (13556017853, 79060524743302717014320602766, 371009827459319293220976390096674649377461393817059805839130864510557538108210714196915795022499666854368973522753558133212241599231112359921131397),
  (13650078065, 79059362806572710003842373735, 384894086775454019824412313823309727811847821437769672104767002271355670277833226595170222856719805943272248467668859694783571447024725835615341826),
  (13744790926, 79058192824848654905207903878, 399154423339553426722946369468788054838018208084409209139071477639123037462869884983782693792738924729264203204141135698107159737681454128360961223),
  (13840160965, 79057014742543036452119299506, 413903023732339822498516160155333028245994704421540954926295516276194452581970787507500191822670938449667594043069957194396463237949845550790627837),
  (13936192742, 79055828503691226027201097438, 429277257819354494382808682796305639973257495118386879751176509828615273633922669728754589163003681115982090852794793385259264602118609402360171338),
  (14032890847, 79054634051963920210260691017, 445067026006813999768478577769400385760959083093670224743512676337627974526674010030315895800864854317703922502537500506719304384389748762005998854),
  (14130259905, 79053431330605466597291530951, 461353314426776539635068859170713639798231900143220088640532651145286120312745733572803648488102551685221855260032313489827552292711214406960845228),
  (14228304572, 79052220282483363461132469017, 478353638314237580946399408060148539768743007410013854418692221600538299387808598389710593806242845285793482294268026391498274618234534392537611880),
  (14327029534, 79051000850100700770148506121, 495812371322937364630793384289194783584856376653864222375841724377426019167011780320563264315130283182683082308135859739994496448541152770467174528),
  (14426439512, 79049772975534491912843482804, 513828629677933407302544226363488897092989049100359514052091108736380228481333485068388722686047411258168283958722787752144266993295636592679587522),
  (14526539259, 79048536600472822897673649574, 532782550360123761710448983270518706863516838176612368822104052962761453453909988936712081675480621665097797023331464764944678093763227266459302791),
  (14627333562, 79047291666190243473491340697, 552247718866263069116956592355539759486654855850410690477135123607981524512532205844145504870079889278124156216305209094061017398461073231087108188),
  (14728827239, 79046038113584916386750190484, 572236436178650357864534801714086644154464092337966357565328851711863045891364115549814339442539812496332579462126447432263454150544783893068956329),
  (14831025143, 79044775883129308984968661066, 592761290621328590152121156733170713682402210541637034333977027207104117241845193578615217207509834588990266255505666775445318061654846835800313839),
  (14933932161, 79043504914882643393878308498, 613835147044181443120385060795888347467112061190540717088514373707881778758110827187002211060336831968341766772289341213996500959151860624214306391),
  (15037553212, 79042225148515697004249299203, 635678719524589821488184981477371544339028015460168163485985419024721319008180328159410082490961638584955813946336374791356994700860389242440282506),
  (15141893253, 79040936523236800524252232808, 658690156196364912939795900696533784156803835729344526040719672839330910455500243130574209061089181521308662932926787438142381949470080959075593292),
  (15246957270, 79039638977903093606007974180, 682318818597580161379284617975187696383350136618787704894978007943856254191660521516323139521537033841506342132538191998411769070956479451501326887),
  (15352750287, 79038332450909475396734909854, 706579537415492760111934705778567094987690125825593007643246587441001598183224080519001923403370159432670506896175284332547033965622669187745586858),
  (15459277364, 79037016880213412143049930550, 731487456349864954756108753790648143356778534629605483189973335076382511463152519559576028721601555316541796800479016512044966300213689649412157194),
  (15566543592, 79035692203396791574176593743, 757058073730751721435286480640274519267444182379050080663501010392857076135418339195222000811229613461332432426044249036764050860587570995235956085),
  (15674554102, 79034358357554884625575181479, 783813295737133851895927112134371168711659209525762565767139556534781161772114565942371843196385275768343300229320449132255788340735861436863523536),
  (15783314056, 79033015279407600005963480727, 811628733247900334062376512516195941392390130621536460584961884029092527677076096788060989061134324695672298920181704717286917353594909293105414382)]

end TNS.Data
