/-!
# Constant tables of `poseidon/bn254_constants.go` (generated by tools/gen_bn_consts.py)
-/

set_option autoImplicit false

namespace Verif.PoseidonBN

/-- `cConstants`, `poseidon/bn254_constants.go:24-111`. -/
def cConstants : List Nat := [
  11633431549750490989983886834189948010834808234699737327785600195936805266405,
  17353750182810071758476407404624088842693631054828301270920107619055744005334,
  11575173631114898451293296430061690731976535592475236587664058405912382527658,
  9724643380371653925020965751082872123058642683375812487991079305063678725624,
  12239673881776349871068957838196514517245834187939809998544709168112271341816,
  8213756851595907076282161124887805623974269954849888814703174589291971114278,
  10700856158409047630150108954036764855084229282872224809993001752389888794123,
  4309412763160017434705250214903006191171337994199861518317363388963372067759,
  13621360205860636764861614843016050680668828136032459556937427803817198955108,
  18132744072298259781740650630118713682311962872833394850644922000343506947506,
  10497941627597965031241580959233976924443640728463059894693130666064841012508,
  6417221626367515719470057497947343409306030587855174225463612195298058047522,
  4674983908670004491400354631773389862914788156614497726528237310334040582090,
  873340198155297459771531732108476825755499970277106398541966195153210717293,
  9133482302270339304679323394649165596260136537041379860642176850815828132593,
  19667464340426349564507575767837635537801536066735594705258884488718315050710,
  331000697881161076911287227440410522823531125482651243929873545789686252480,
  2272743329483520819389104778389979623160875907321267447635586085241433137026,
  20056061746422267419826865443608176291944892343638717421077672390127627926748,
  21689171326367195475219251979604515804697103534428737460300868676042327355863,
  7810259695400914964411387917274296266504340291833964145271847716091273468172,
  14020998353215410538067420885522582505027736982810754116099481711825941220642,
  9245012796693900213810598954108273676196337302084957472786966340245263275743,
  8962981905074764319938168719738488892057352527537684271935935864821273084600,
  17332843516965697478516240137711403804881134130964557790940490781033584077729,
  2962481512633005781617177153208165597038681617596047875933934580338169170271,
  3545583524837641414415308887998349399894575957283448040799889114001300580510,
  9825748584719861837046057557518727684444343953070352817632834283853645430055,
  17858606226144476516342911398749600850253621768390773635294560290497927852949,
  19407543101519936976076786599565778993379293656069417288311522496519916759844,
  21548305854518815463471937514130615108218483277778620473090880308362072806993,
  5027201548230124209007202023859059041801516590630988556095211824751904956552,
  1278320788183053034261211126815207721315633476390581364649595040979423239088,
  21021340095589643000573495115924922630807303076545481383969066202975724043976,
  918385069628188207001966014851379853961258262104472252966637722307728618311,
  7965072539100037475925090906281896901763370093075915840665305317760262942154,
  7378267415483811789102866201206786220747449921553565182362543937740633252433,
  21420063039401631492872969377050715448026482027341082733718950945529081119315,
  6984186848935723943941543006673172228872682933412337752165652636767411415446,
  12107134736452640457370020100579770521541376434013671407419563526253119375027,
  8454625495310558663140928634608422027208548557279385097066005785045755903417,
  8017631723660250252193376543593224884977313136061388836952991492888330231080,
  19995498935394919030796805510514577077319475365066948284951310616396837691603,
  10247653874740427181312035102426523630476005333120089103526343619029364327967,
  13160967777591563201117493157286130579932067039961943416358165521611018318814,
  5676293694146750080963041160092533338992482128392885932218516813947476623756,
  11945330020489343984352429388118756789915736454422495317728221749575540363130,
  16575755931296600565681989782918578103656201270919325693721999523168590365097,
  6507448101913175376269537672277524478400652962306200709943614250998845221975,
  20000756050339437189232666465591830538666897533492662864197332257508545696504,
  2538139500492919467696560596150779916859394629326537877502980743087004819534,
  7871037999774788273525866585990542333245923983722339125599991222477852815605,
  8368558409504001796987467259514778517606739110778427183378433173780120985763,
  10459885623117973980697126416757555084518174957115744579590957904857119054380,
  3384626976854176329065296334831532874977246373363627584425356985964639685936,
  14737139139809423972873213065253246598075451131478157534053817909649707346105,
  5793030407008346395600962336988545239125310160053522248574303463872647020425,
  161797721038773165886882501305032811420344793568022002686671602943345085701,
  16804762399165090393770239542398927686244163302041099831597167085216405440289,
  15440431301017924367171251352865716677435047477418739126248587843926419339250,
  15570353803062363582500010627498291625214012654155408601153435169223922455380,
  15115601269705628455987152258857868396524812969878723314685224929600383566277,
  6356053248039389904799735666848118481514593163165587256076018940751965212118,
  16309790196305846370580640353745827882351273732480869449701807093685497609128,
  18447296906230039277288210321788736138216936478488032824595044533456671231353,
  6105351805879633605209308509080121925171118411225835503106175078539279138153,
  19852645406205681222287243787651048897744424465454177194550461625744671602479,
  9007786282651237028773725177593860474523832555275407287854317958939412791659,
  18947127426470143546676956069733014228119216644326548862881450999285087652129,
  4006307826238987763983990462011007258305618881936961734589789440938853470615,
  6924385845051163089352800210788743599810236082363643773698057309137019167115,
  2561599182344380405085465588284140808385687895597384476955417835636116225821,
  18225048309586676741223646736155757525087799474840323150729701492173705507839,
  16007480414415489869989133828107467718966566156219711380836971295459227141818,
  1248906006044888441798838825685606393060257012284188943868730340563960780866,
  20912864018050627133842158245163422113261374878008212512322853267715626252916,
  13216486202690474504584820948167785518004498504229717602814280132903612841969,
  17416264900059210810716133407170753459272974595675494034944092509584936747655,
  15395940772659312642272628762657023074462358708226101085466723152641135097674,
  4690442806047481777095177614992497363041188209965731514747362442612318535595,
  12980185426778583997022610696582563821013078583440402121868121411086576741088,
  19436953581443472871973830882428624449045305494959438365629984120779166561614,
  7021128259021787032633332177524933222338330182720924079777325144523649322812,
  18561291417991436986590120557027289864572049192245689357046574683519049533637,
  12019749240411640852887001467406069824508276240179427493437313074459156379732,
  19007581091212404202795325684108744075320879284650517772195719617120941682734,
  8172766643075822491744127151779052248074930479661223662192995838879026989201,
  1885998770792872998306340529689960371653339961062025442813774917754800650781]

/-- `sConstants`, `poseidon/bn254_constants.go:113-504`. -/
def sConstants : List Nat := [
  16023668707004248971294664614290028914393192768609916554276071736843535714477,
  20198106103550706280267600199190750325504745188750640438654177959939538483777,
  20760367756622597472566835313508896628444391801225538453375145392828630013190,
  4560321026325826558577463029506577497226940849420215249948019116691014248443,
  14542348742554217629977259301175635295381723358917389768274600005636270665372,
  15896375770890915929312334597144922470201903000282577832977222171710825960733,
  12252597347102015743878803847985560878912969150828000392862427919235870760323,
  16023668707004248971294664614290028914393192768609916554276071736843535714477,
  7179342059755701265188463641990689102412444920238824560515276276968272417627,
  4291630597779640477035256747339007105528129889017831542003293220100844273045,
  7155591457893668398581213488670279080694237456746471479962759104308162960346,
  18018059843853960571576693455761079306078638316240126846230125992269221919628,
  17192953047291854075450899126062621814148699654417386994738494022353693631044,
  21569358698233938087179836388127293183598397710122666685148766859224500701833,
  16023668707004248971294664614290028914393192768609916554276071736843535714477,
  767999929530270249383649002937499906068820748885293476546946323828660462871,
  5621566033978712522450054985133362876999740181849707666504220417128301048308,
  7047587043137472855909285569331719962122602952080655968507950635506526200417,
  4106788926932251085789923064963212794107963499320782851030491954062548275037,
  4545465201904739898734767265726940896371623586331600641370124254775978068067,
  10998902844068831181439895790460185435489188976722435541316954293463196661627,
  16023668707004248971294664614290028914393192768609916554276071736843535714477,
  4376836298206152573581217002448306554373223213053980459591637689821900483336,
  5063873841797552329477290331693185729765297320248590815860571737190009344755,
  17220054068062949177158788546035218460663984286240089601095376499170326046885,
  6096091793679274146365056037005290512891839764898244154356695047489211507312,
  20208154436430351332345105187219062318903703844357504892008088901754085119783,
  20838511199557042422189066592494164230774524176144133560311285338373104325885,
  16023668707004248971294664614290028914393192768609916554276071736843535714477,
  16227720862704770803579874423899491820268073980006154670796744520986650305964,
  3929921339874032224077598341189960169422821598221170533707987779964278253429,
  11676522033799786037262769984406232796495555956069794755879715792396951198318,
  7762519209385193303450585425818218327021377088446472105589371562364474259645,
  12228816136730871104506419752649367119045148103237539623130531869347941136043,
  5506740114091186508725306313701186842841118936086047703119202768266996591645,
  16023668707004248971294664614290028914393192768609916554276071736843535714477,
  14813919600103919291484875851986720548476220511386386518354061356196294952105,
  19412665928425989269357649645392922518929142728556361947563991549129986237680,
  7745252322635388376641759428229975035032852732127464661605110457073217385072,
  12066184602104703003390387343585316865507822321930012054206126015745471356816,
  12620273762884289038844321186080149434615909817652953074992148689167338466281,
  11751773042154924867322926561716263630089863992083485679779160826117120630730,
  16023668707004248971294664614290028914393192768609916554276071736843535714477,
  5787863126296931978637454491180421506307265052288386136386997720537089333357,
  4359270971608384879625804007684881130504862820820494966964908818477035866962,
  19213956561377299828591097862016633994148464565683346498602915228516385038972,
  10661554072824488477243358897537934080796136449622029441506710580786939692047,
  3607791084285905641943446462342879718459787316113396877697968017015606720718,
  21380267103954285713588504655257961830793460465329761560308765483331070823566,
  16023668707004248971294664614290028914393192768609916554276071736843535714477,
  16335017324810170896233622441986531365208293021101073775522004006769586788569,
  8596452296160802102282257210844234154821630615259613589128211738647312221536,
  16301372420970040998092568156060757300799008373690279794165397142889066306513,
  11903327405072234929619206491534763321300297227799575111355508350177812704304,
  14821948344368180716550312221723948572649473361813001292505502225087596775887,
  5285692778454746827266147532131677990565304365953070750869571432820529495914,
  16023668707004248971294664614290028914393192768609916554276071736843535714477,
  10012872528823706988605864950067342792516562023507005612462537243496467566252,
  21446538914812609684138720355481253195782233393805940184895189253411195275222,
  6967738095634646257690113616580876555259467406702097184326306034350680240041,
  4106908293164276270299730590107104728631886925545072356564726466348010934176,
  20927688665665429774877287472467937369033546230576320387423016374665584172634,
  9961827048684904093454156105462119035870307939873087416648411282423867596401,
  16023668707004248971294664614290028914393192768609916554276071736843535714477,
  17625964999746898246984332334222740240090489215775011285534890391099108738991,
  6756403122817134101960922940971569987994537470470008333055210502063290961967,
  18209952059360034384023720860507712662310034604843833483955548867331649086618,
  8749953392298305294875888962184156769810429880914465959429873281709868501522,
  13903906876414887303860424108888965657645488675119946001291096608021846549241,
  8884215530056835002390372161442569149992192407996136723184495322116314590715,
  16023668707004248971294664614290028914393192768609916554276071736843535714477,
  15368493359884894356742361670810465111377869951487306983186672135817808040059,
  16469301592941427332568429408115015498659452810956369922459344407975076653255,
  11953776125042477689669753843214783238996317490452913722906886945106240528752,
  4850027575321262255650746466350338325012270813222547784484958365303358175196,
  7167191208528939112939986630484202425436947674819310704476597678688297314160,
  14743993805036761996537001252852408745345655735519736268834200732992754437162,
  16023668707004248971294664614290028914393192768609916554276071736843535714477,
  2193200656642352685118935602989839715339339245164998181015765438900681320425,
  4952431971730605970338760580694476897050208114543185599136664869372496356437,
  11345335340256434787038072013242069397625261572269911025596723263652849081076,
  19160419866562146325212161338497565927215049171520418417356683157217751672139,
  1906154907657701464044944280274832161539842850674948965456024456273947429115,
  16149082223365808325093364716798557120316343643236068373217398223890421952409,
  16023668707004248971294664614290028914393192768609916554276071736843535714477,
  15043765472887378252850447725400426753906560153686308918666838116627815818554,
  12358170975909062301667468450513761096746838254885629802196667786117625700681,
  8976079215643004959353142348700280485976874920070539486194110584442767827768,
  16076674040958582640238476383964669465698501606063044308184974525408139269248,
  21647594485928619120181355125322770225837180985764869124047447620451714635371,
  21615565593822404396628787247811190031843657706885317097074400292994831686718,
  16023668707004248971294664614290028914393192768609916554276071736843535714477,
  7285489402319904168831455790041657959272324796876172356990227907987038622155,
  8211470967679835460786450636871651606756811185450731546421075600179331665168,
  13120324752637151731834041425113532499273467426551390593296677993139082244188,
  6490061383110696131545774076292741528427005211177990719476969041145673265422,
  21671644951532628690769713999772810624944081525303128765668379478511313095702,
  17491948871201042934988514071862478178478080786921680019735540941776855947714,
  16023668707004248971294664614290028914393192768609916554276071736843535714477,
  20875198681143976093301585336441600786893116178926266185909922467347281090330,
  3598136009866557326049002438338730052625336381410025235713569185700458778346,
  10257854050179821094359263633511835293496268374135163743255999829573090463793,
  8709186608235401140998284233255708538357614560705220346211132868280137795418,
  1259589977644258611864841556278758814462356863769029941139050408715640323060,
  4938787097541166466238757186525276546940957932147842294635573194784914432374,
  16023668707004248971294664614290028914393192768609916554276071736843535714477,
  16717728254520320964463545682641729805489575123710417403982868570393738171908,
  9748879216547249587937312403683718221531596047715540576918379577191876140829,
  14944874834710321794079457580123143945012638912293883509561999360499542827539,
  18031584503513589779232867929321541667009512801047020067337884181460183159789,
  18414164542389736964053830253126595155017280572430646030445262089460883013232,
  2610402018952962996318994974332047870945223376199918653423836750745739531230,
  16023668707004248971294664614290028914393192768609916554276071736843535714477,
  14009467204580838343058201541088761048498359505808795311724314678689480323211,
  21469776223413224601890303218554639233147301494161934252153679844173746974667,
  20647680658876691843280356403387803136370174824153696476894283712779784940833,
  7936850548423967572066326867280341951424312865893525326890769023431047320991,
  12722969395702657985023075505830677750286440950878333627607092139722193056708,
  11321152935530907374770739017822060871862163756958501641453518139130228537202,
  16023668707004248971294664614290028914393192768609916554276071736843535714477,
  4094512680835093637766266255807831961532213986166871807693377951477711786051,
  18178389385096689665303225717280896610765865274508135228632006790574677752293,
  5003815887613767774717115773943502417144707145760897577207221259749678760892,
  11395014411676120154590806918236444089801092874462769558428488274754488682814,
  5043626533165824802355651303240938472427342475587368271803664178703751133184,
  20737661798231456194286427103806996346683878567029159134024210934417745289241,
  16023668707004248971294664614290028914393192768609916554276071736843535714477,
  17885807983183478128547293344015669882824716934567927629992464147210758449961,
  4491530859611985170204284394599169523531547745924230349900720023555385570566,
  10590405810993997824904026910850308084431468206425947323744908163083992870845,
  14773696309507449928652967351151268377421083281901294044684766706170272145134,
  8012817909803347753036095373079065441540540870790316296905616948358031128489,
  15953294845538540694147122390548121234862217402440162841644474763770065752954,
  16023668707004248971294664614290028914393192768609916554276071736843535714477,
  19330308615634016202275470394593918283291746889176278663184951919223544096896,
  15105179537685942573078046208371583063999793255578601214915887961329652398190,
  21709064542465141520669973714950919003335169451362947708974082912187480247791,
  460683998482756280912187509737431365362650506162063605585420395591986395093,
  8528936230636059063848306774318500923209521695610089597282351580188192653610,
  8893687738651874055934077641258880070065696892648906132887857010931807062812,
  16023668707004248971294664614290028914393192768609916554276071736843535714477,
  9353521397201520020163669559110959732855095088196767785130221250369398534266,
  16613542657585137487151470980837461302153210762614545024991732555481490683814,
  2204502375207887950205548277458704596225935813112150868324282564135082293291,
  21254675318867619388160936117044327276221059873039333971338260709002243972836,
  16665573707712654499163134682677891418056405526644611110898762937899356502949,
  14267552583056171982269630733147008270458243455399509417719716681547925602990,
  16023668707004248971294664614290028914393192768609916554276071736843535714477,
  16367942369253394098422648739247412041658904846897825274155468251740735622582,
  3109601755423487827090460933116495844768178403907542635843078881599579349417,
  13070881723095523414228674713428974685755915412664044005891151350338033029052,
  10259475086157775344414603146661739080464638100961174958014154428063344142346,
  14392919515768311705876085292469557682647137722466492884286386263408604670613,
  517834877649467900881483483632287988070398657044896986690867428743067995638,
  16023668707004248971294664614290028914393192768609916554276071736843535714477,
  19776116368291396730046653100175352607868202157614878715709943043429632352654,
  5905125865653916927083238886025287246947738553282644091380121061742003257962,
  21028910015562338297173802587144293023870505593218986935232089708700866548848,
  13395944831564259671405922878791909538223635993323846275946092882663526594615,
  7995249236543262914206397633444491535498682241246319919218592002459454218505,
  20437702676708041916002540544749140197744801315911882559568865094949905456106,
  16023668707004248971294664614290028914393192768609916554276071736843535714477,
  18122990859780045886774524690965061785055534365091244948379358057402402367696,
  7828598613589603783167146853068200035787559469554903457639957531866407371355,
  9332650099915404377420203417011695963084742503430897569811042552155208487972,
  10307617695590426797520999316292503894130404130453293663650538793774250723792,
  8835502107624355497501451075768318888448783969087607217992442118675676473235,
  19120067314041132936628146578356142975011085061134316893491148167766430272263,
  16023668707004248971294664614290028914393192768609916554276071736843535714477,
  14131158550284047904306566770309132813679338145017696511713416041803712831947,
  18278505503803771900469477275449664281120609236542416293497549235136781566441,
  17153958308999151990078644296244213778962356073179462336659818419962234105847,
  16626758607046130451896378742113613353140534310327816824141377148817543345317,
  3253978674468876751813289588828587424582893573659628257653601068985274811195,
  15124684821333452470068683925631859150599113099371600515189799092190905862045,
  16023668707004248971294664614290028914393192768609916554276071736843535714477,
  17554798861971373266763024346102515996719053781651720018946226608652696029966,
  4673377481212178482442054929782481181148885179378220577674849430151263814812,
  12802184117569856558550257245216015988375556783492060695287038701794605413493,
  9519514614359898302883682133832551410294990399516042521409471023087274168403,
  16836659443451056297630548550595506972721716824013972318987309735084892491057,
  7395214083924359580241425985340483333597901523044123868756997584036793198254,
  16023668707004248971294664614290028914393192768609916554276071736843535714477,
  14399322858803900772257678181955451734179272552912056546775770413858440530384,
  1909978450171978853529623580362647076357052571231552147289256161279685882392,
  13281885756205124109513999931355079980393369422935519271174043924199138273390,
  164209740719129725777909013206421786172977937257506729867551471718043494039,
  16705691420580567376788433299746618119784690539139871305988345805972046012457,
  5826800399196629549123275187565614318381497389323145097682684583838285855788,
  16023668707004248971294664614290028914393192768609916554276071736843535714477,
  8745700306539329869259196731866071878870577472742983713396535761464344570296,
  508475125028636547085017721909144447367158867634347790363605834249994548305,
  13308065070657129846765808536411368840800238227915085241160671109842614736069,
  10019712566526881174916627302365233202635409302600998712624311257405295555967,
  14948048658262145603596652021141019702423717894287496732011428902097682702613,
  15039086326216274046991605161343057988750627388067276180888219462568845064229,
  16023668707004248971294664614290028914393192768609916554276071736843535714477,
  21096491705236217573638753819195066035854753372393176304524423503032224425998,
  20540136431631199250453995588480387143164544354370046506703506396812372935282,
  21186849459525281586750729801174049327027230971997759985511944731378352524720,
  6848121885117228161216817594905430814981258429233967407187604355908721328558,
  13037575047232910005715065472416622419305037510557664085418549453156900385456,
  17833625863119365031315208055152981164942897924758710427636399886811449556740,
  16023668707004248971294664614290028914393192768609916554276071736843535714477,
  647623368236351122220409431799139859876095524525221664162752495435482065515,
  12974365649211231492520765559798270821958589291536737829547558404742935791527,
  15547534600512764170410743968922508315745715132682752278457116429781298799438,
  20584726236425418677723102941610547182735385166462720350906478152233407640408,
  14300225354615797067692544691787701642123233971394030871903066287215191118747,
  16295678001265781880580526410222599033811623386008655132827551618100838695276,
  16023668707004248971294664614290028914393192768609916554276071736843535714477,
  20381043379079252254800770843787089884660790822955671220847236480297529336205,
  9108894275082870067933192903079574663897324502580109505768620424181024287163,
  5680820607864330888516377287072858105818590744368374152569440046457757684320,
  11053473350105919249170169199500210854013326531260083017794490958609880379672,
  12769075511883530146865321202033588214490414269703513464106497906236932124198,
  18759973693942567196361351599844723429910867650807109887961315229008339652628,
  16023668707004248971294664614290028914393192768609916554276071736843535714477,
  16425700741812211675363235647687005029399366301071410733155116166884856887679,
  19869702808216677847758761872487163621387473209265033304520824036210441934818,
  14073988039965881048079447010526118226047246598254103612590470558684258186244,
  886202035735213563046862324816018035210995137716997070920200120700003967134,
  12027565694895224474791802234109034039772984880014776210441706322417559146489,
  11972498202326440163586176809543524758264680802074662372615568024949824595702,
  16023668707004248971294664614290028914393192768609916554276071736843535714477,
  1348630117144789003644452314839072329750068133934739562703659359268389747985,
  1396107425439796908939750972938223221605778648225762567016308314789520339962,
  6173001858003427802042546706782122098835769939275305980271183297728965316942,
  16943717877001499284920880255048707490719574351604140426529143119277836403129,
  14254637476176032842487152448677962929592936990526843481247886860454775633326,
  20112551263640702643495202387764478482489841288043250651308711396213637765954,
  16023668707004248971294664614290028914393192768609916554276071736843535714477,
  14580210729080456657697439135745213807214996922877431278225104041221322283144,
  17944065522218783686971981171223808953317623885825040885897493399216933397441,
  21672476111949246523929453701335722206799241314728447223788259504904156987147,
  16427849329831493218262402566840933522542577642557896988530799384419530862522,
  10752733058291453323011452726707429118120906743416692984681703374550581513882,
  1120153114481280927826334009363750761062539786064908406397864613779304433308,
  16023668707004248971294664614290028914393192768609916554276071736843535714477,
  6657045611436002337943867733574742655960423094099745811786819937865742754593,
  4548688566209049346950516871294343401334051071109430534058854346117866744739,
  12004873649650240122663793814044887628092046288070805572287428956807094282568,
  10376720357183386406622952185756280165877227546938927619561389051210153106592,
  17932525558731721856340352992169746291760530992792261472641282908501604446811,
  17590757077464321402178239743669088074723578712251925458853962272816312109152,
  16023668707004248971294664614290028914393192768609916554276071736843535714477,
  3209081991282167870383195969354868449640899668458993044016055038297543518657,
  5864786650128394026837230220022650012182783025931675255391916679281913080366,
  12439377586247860055183624555830288546667346442629775929405362799390541279515,
  20249169533694211243074917072193953326307543430194777911574824077740409867889,
  11955292991025510476129504480910338468553857092582960824101774602100105865508,
  21233753658809258463246874948160331522087646774375604829374717282611108497353,
  16023668707004248971294664614290028914393192768609916554276071736843535714477,
  5299619631018824922731916064083443097684549422797706633258895684420281864108,
  16213823392220550809755333072267867447553466481133861809088541225502993792933,
  21774021022385158712853171484065240472428767308361650780051834129571232443113,
  19519712983460247626783700627305949599146930344376818640048505866722051236075,
  19201631020677948940033345574241839698570728570677190746232685184366085684755,
  16950719963293537936274035069294977251884656006132028465274842882566872316866,
  16023668707004248971294664614290028914393192768609916554276071736843535714477,
  19155409025424437690664522806909434551970754598652921692474864449826455337216,
  7680332789706498740282955823359712103361665361365018131178757219206780037124,
  21076561076080209150759527181245666654056099483239360146471339739637030537201,
  497501917138640900716963445320097032971939272734057482481699619406679852072,
  219804352410528064548663406794875692377819157777555527292379890517994310898,
  20650062109272119754567889432541551183228545711882667368558930819623066285550,
  16023668707004248971294664614290028914393192768609916554276071736843535714477,
  11946781549111733342374437686417901919881339755720725189559112628795817706603,
  2484460820642436269798549252737235980435448156526237726927772714161779556117,
  9131896045016416748829978568219748930005109068654516264093181558753767987250,
  17539690836656056361902215257263592451628414553660709391600001441653830206065,
  18680327085533119384849399232368527875194911756927197995064579410845089235626,
  3733704884118300721043768874060062456481930803626613247865795986430463043840,
  16023668707004248971294664614290028914393192768609916554276071736843535714477,
  10869324612517034722196547288387911568763853980957190569709459262556333259802,
  13541129633400691168270375425224652251629428845905913714872674429516061703834,
  19566585716231282658157065399746041623123586124594568018338142400023247847175,
  11129427786234676461186088751699468257665219195861018218716326589482169235738,
  12587809912397784737743829505557561200040529463438352967575388905004140998345,
  19808473521007223175388701036440740142351657866781216113100022591252318502799,
  16023668707004248971294664614290028914393192768609916554276071736843535714477,
  5873853271511157388891218086625116841039294307138994311967890057520246823262,
  13003486326245606952057355171036271201855738149044785151305974666902939676968,
  317822617317373237216981618014479686465697065761329030109475447686164721451,
  10813741057848680550002438472132336318708520104631920434881565279665858338767,
  1407947600055243217568670010193019554033099296398850283939346444151815545565,
  10748165363652029592490593406190797442361550791106744394554436667603982640562,
  16023668707004248971294664614290028914393192768609916554276071736843535714477,
  3799831132390157900444549796610450353874750090914089848349537541361771448668,
  1236474870532132985977600728058617189131963342170879994970972386547660462416,
  12129114991304316197801712028291571747667685822200300686411158807713612068935,
  12452782504819389866332384374641397209636135503933026692197899235338769218420,
  17177375615846222421363183777625422826542711334348976790999247784204226247153,
  14724993254182752446999797852163908134432351958415665363281656992462126774682,
  16023668707004248971294664614290028914393192768609916554276071736843535714477,
  5334385037080506459192079464304402035717161708938461991741391759156701759962,
  5839603057106324284245920895643629522252067410986057849259994788753287208289,
  14326608902192980988016963288619186073396385273801977982209424374836032185437,
  3833013442414862082598619907743002206819313202476167703686360031484342083849,
  5782627886836397242604493658841762433123584410931373681442076300374639175204,
  19713051315944380534324352563108780835417447391745041989823306798607010582122,
  16023668707004248971294664614290028914393192768609916554276071736843535714477,
  18432899792379962331910523191119990280606783016109716227581834102469679493864,
  10114179315138932736747722408239325460537042542506605453447755151962569740761,
  5821210875734924302116104693653963583724566141160222647210211530317113743846,
  7272434816631750120284299385293876240257916908609412315349255596053274406936,
  4212296281436173015983236952207520516627835095278776445938770899997037368424,
  6955140567497387214231321978484207887660637811874868846921238176118501620416,
  16023668707004248971294664614290028914393192768609916554276071736843535714477,
  16897957031536287824842741409118604269531477953952068130977839056875990315078,
  13928891481908488754724298520914059676632551457225054691072093686516662594704,
  18609207589312797911981956932131451830029990404869237009695385065926468947990,
  5536380863513150280191401661180648941427892275212253324640352848339521760494,
  5599225957062546984064803248700291456577900100660883438352062938121375670876,
  12727467597196655197125834858597394259624613129696376281662301390743901689826,
  16023668707004248971294664614290028914393192768609916554276071736843535714477,
  19163832296523160821274196616772872907137958231822436470531902352232904941115,
  10312950311908120735753698174433012744274520178660214256070764297181492311529,
  20378282857854630279466471430783739929226973027333858163427244408490964366943,
  10377180064239448654317729091272064413356995963412409612959212677629982453181,
  2933414924716564156600257176308187931324021696634706744075039747567264729208,
  8493086687568016258498608482327521077256426060613869678446606139457160557731,
  16023668707004248971294664614290028914393192768609916554276071736843535714477,
  19381450024835411599145851239904096365633900646004460102189421850759351066697,
  11953019744947469552190875928518181787128546459454153390773097887154577772396,
  13376491371023193271031127665379748375688991534278974638471913598784726444357,
  7542871725069391080270213343389444722683777408103033554143042828340526643887,
  9502363618190826927264503377951186073033660324604374823531489866751694300021,
  8942475100033900568271185100922618012810524607209352225513012701802010622336,
  16023668707004248971294664614290028914393192768609916554276071736843535714477,
  21672484879307704998081070986668301291593477229230485880081317733634466423656,
  12560411374852110641761658167591216057124945743772728716943960683160724056822,
  3722997355103511782752507300407310792223403249171458092438045493962181025019,
  14433522510308019912373989177241241296955315520711007204668297246004835289367,
  21074332145955362315628041254977693445345960799533333435986322886475303250112,
  11688037814420019994761430124416432916208455640936309232737398596294520128684,
  16023668707004248971294664614290028914393192768609916554276071736843535714477,
  8413591227751150541157599965184931267423827079669402000298235589329872211968,
  17650123658569960265162949890832225475263279247059954604797491790529432356321,
  7032368326020336746840339437615845824739080336621780283569419873917360702928,
  7385147306527643945794759599270778258162448657029306136967713046400437047254,
  9164511581583407790134635624183479582650863721435788581639986518157210097971,
  21232697956642675538653913718380508229639927919821094050264990131998515480363,
  16023668707004248971294664614290028914393192768609916554276071736843535714477,
  18766563503966172098056598342132389632908065386663557822565991028183540018003,
  19588227650050881742478712753831458567447756852853785637599026881217455808917,
  1397562335684000327360763239099474090628194083907387149001776134346855210172,
  10198846647447159506242448434572704392281982267842998844531477628631237977793,
  4082126476185956308289516001173247963427942564076732012191115788827109604670,
  1259882007354573001457197686554861546488356012943826286439775962762529569759,
  16023668707004248971294664614290028914393192768609916554276071736843535714477,
  7716815769035341534093079824074304698185682494514188549310576878173077130022,
  2044076383384167496824768664485547753134864604656664348421025061131743608977,
  7774223140652128981941948651155326068745393941932597512012824767919719875428,
  6679985805196174386295848216686508579276442390463151307353623646770660788584,
  6774793209384233535964197412993868564894958211307656732015443437790617825766,
  17867078843395024616403441485600115396944676013587205981831608189485186004136,
  16023668707004248971294664614290028914393192768609916554276071736843535714477,
  6918083713687670289412597323877415882006094844653186686554461196053948517650,
  14794244995142016109988120927552904368673513765173156992855465350554201454520,
  9469895491505210921132335959822444547950761948532088884408658386318765611458,
  12410499443680346161671381257661336704947211959564338473797332912666796028788,
  7926578664199378339557308917160770386201454695092254922901982085502190339711,
  1074389802911575405482398726791994815320889352331411931514923735327800497648,
  16023668707004248971294664614290028914393192768609916554276071736843535714477,
  12660721219055881159942064421460786460560697520809352389013840987393603997135,
  4257759001257681685309102971805195284424999843809187868418076529498991787195,
  8970798405382398224814171740357247330369162836256360293947332566119181156885,
  17958544420119383745643163073564878224834088412686597346123856987725643531187,
  17738189036503307406862818984242172707709553320980438963253190315183389070671,
  14287766641051399433873731520879849723607926081596701974021064214044740995654,
  16023668707004248971294664614290028914393192768609916554276071736843535714477,
  21558827418411379216994978187086694912014548431326761389965315489378942066021,
  7136882485367499209618511242521887384194879969153189708025876500490677483273,
  17220467566610801825959292161481147144970669500227722755203417787632930011521,
  15644351871844947578414272909094033689340289967910075614127700893758848906931,
  21741724266010931381264164854372691714176988715532516896804407315923532276434,
  2419785684404332928492315984637322970326738862445167379156610994774664059995,
  16023668707004248971294664614290028914393192768609916554276071736843535714477,
  10339805366850086548361875185109456315271528882904249869004576409152632926693,
  19066576437237017989921605377017982206044010175904765960860923934443601514592,
  13822379132369217064164395859669265238386142106084498781870935216496751999075,
  21216485273531618687167053274106121432450196094331038082541464436433083018343,
  1540326880060266517508750499666125605454874001382251434794459985013783734049,
  10979571635040509905158742852019305039752888804051338348133671756054719250675,
  16023668707004248971294664614290028914393192768609916554276071736843535714477,
  17817950236968355275450565661453279500832679749582869473068209804712565393928,
  4057227004326267443894866444790295439173752231112985308059870347643133047427,
  9481547255077304194865834384522710415757401332737060279379100936057225542025,
  19204974983793400699898444372535256207646557857575315905278218870961389967884,
  14672613178263529785795301930884172260797190868602674472542654261498546023746,
  21407770160218607278833379114951608489910182969042472165261557405353704846967]

/-- `mMatrix`, `poseidon/bn254_constants.go:505-520`. -/
def mMatrix : List (List Nat) := [
  [16023668707004248971294664614290028914393192768609916554276071736843535714477,
   19204974983793400699898444372535256207646557857575315905278218870961389967884,
   14672613178263529785795301930884172260797190868602674472542654261498546023746,
   21407770160218607278833379114951608489910182969042472165261557405353704846967],
  [17849615858846139011678879517964683507928512741474025695659909954675835121177,
   3722304780857845144568029505892077496425786544014166938942516810831732569870,
   20850178060552184587113773087797340350525370429749200838012809627359404457643,
   16058955581309173858487265533260133430557379878452348481750737813742488209262],
  [1013663139540921998616312712475594638459213772728467613870351821911056489570,
   11920634922168932145084219049241528148129057802067880076377897257847125830511,
   7082289538076771741936674361200789891432311337766695368327626572220036527624,
   593311177550138061601452020934455734040559402531605836278498327468203888086],
  [13211800058103802189838759488224684841774731021206389709687693993627918500545,
   6085682566123812000257211683010755099394491689511511633947011263229442977967,
   1787876543469562003404632310460227730887431311758627706450615128255538398187,
   341662423637860635938968460722645910313598807845686354625820505885069260074]]

/-- `pMatrix`, `poseidon/bn254_constants.go:521-536`. -/
def pMatrix : List (List Nat) := [
  [16023668707004248971294664614290028914393192768609916554276071736843535714477,
   1219730950550419355108306775069417768387360853368230473071077119306046675572,
   15510244717642334318966561950951002886323209693558586261457615423770062424603,
   11219946567517274434615160614700308041943360069146893241486574665265822013129],
  [17849615858846139011678879517964683507928512741474025695659909954675835121177,
   17895496371927328657913965415733510282704230821151428152183928968046205671575,
   12435993608134323226059776526130103965669300982573338632451717852485169465950,
   19939917978926080723093316474977996505935743392066675936804030819065420290084],
  [1013663139540921998616312712475594638459213772728467613870351821911056489570,
   1028374094780216331619466080637054051304375033009771928288419347940821888279,
   5643605551164490740833629634586387123466682387363311974272188018328439695366,
   3961412593815053600853163531157674011892719679065160984658051723455387746952],
  [13211800058103802189838759488224684841774731021206389709687693993627918500545,
   16436452107226347557423995353975118393704571960279031780622882419612847031696,
   11841890240732656097844244837012648335708695431011214021127380678644769978309,
   10936049757440664316304266313740303505981633272820388610540392640560764966725]]

end Verif.PoseidonBN
