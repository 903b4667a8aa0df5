/-!
# Textbook Poseidon constants for BN254, width 4: round constants and Cauchy points (generated by tools/gen_bn_consts.py)
-/

set_option autoImplicit false

namespace Verif.Spec.BN

/-- Round constants, four per round. Checked against the Grain LFSR in C24. -/
def roundConstants : List Nat := [
  11633431549750490989983886834189948010834808234699737327785600195936805266405,
  17353750182810071758476407404624088842693631054828301270920107619055744005334,
  11575173631114898451293296430061690731976535592475236587664058405912382527658,
  9724643380371653925020965751082872123058642683375812487991079305063678725624,
  20936725237749945635418633443468987188819556232926135747685274666391889856770,
  6427758822462294912934022562310355233516927282963039741999349770315205779230,
  16782979953202249973699352594809882974187694538612412531558950864304931387798,
  8979171037234948998646722737761679613767384188475887657669871981433930833742,
  5428827536651017352121626533783677797977876323745420084354839999137145767736,
  507241738797493565802569310165979445570507129759637903167193063764556368390,
  6711578168107599474498163409443059675558516582274824463959700553865920673097,
  2197359304646916921018958991647650011119043556688567376178243393652789311643,
  4634703622846121403803831560584049007806112989824652272428991253572845447400,
  17008376818199175111793852447685303011746023680921106348278379453039148937791,
  18430784755956196942937899353653692286521408688385681805132578732731487278753,
  4573768376486344895797915946239137669624900197544620153250805961657870918727,
  5624865188680173294191042415227598609140934495743721047183803859030618890703,
  8228252753786907198149068514193371173033070694924002912950645971088002709521,
  17586714789554691446538331362711502394998837215506284064347036653995353304693,
  12985198716830497423350597750558817467658937953000235442251074063454897365701,
  13480076116139680784838493959937969792577589073830107110893279354229821035984,
  480609231761423388761863647137314056373740727639536352979673303078459561332,
  19503345496799249258956440299354839375920540225688429628121751361906635419276,
  16837818502122887883669221005435922946567532037624537243846974433811447595173,
  5492108497278641078569490709794391352213168666744080628008171695469579703581,
  11365311159988448419785032079155356000691294261495515880484003277443744617083,
  13876891705632851072613751905778242936713392247975808888614530203269491723653,
  10660388389107698747692475159023710744797290186015856503629656779989214850043,
  18876318870401623474401728758498150977988613254023317877612912724282285739292,
  15543349138237018307536452195922365893694804703361435879256942490123776892424,
  2839988449157209999638903652853828318645773519300826410959678570041742458201,
  7566039810305694135184226097163626060317478635973510706368412858136696413063,
  6344830340705033582410486810600848473125256338903726340728639711688240744220,
  12475357769019880256619207099578191648078162511547701737481203260317463892731,
  13337401254840718303633782478677852514218549070508887338718446132574012311307,
  21161869193849404954234950798647336336709035097706159414187214758702055364571,
  20671052961616073313397254362345395594858011165315285344464242404604146448678,
  2772189387845778213446441819361180378678387127454165972767013098872140927416,
  3339032002224218054945450150550795352855387702520990006196627537441898997147,
  14919705931281848425960108279746818433850049439186607267862213649460469542157,
  17056699976793486403099510941807022658662936611123286147276760381688934087770,
  16144580075268719403964467603213740327573316872987042261854346306108421013323,
  15582343953927413680541644067712456296539774919658221087452235772880573393376,
  17528510080741946423534916423363640132610906812668323263058626230135522155749,
  3190600034239022251529646836642735752388641846393941612827022280601486805721,
  8463814172152682468446984305780323150741498069701538916468821815030498611418,
  16533435971270903741871235576178437313873873358463959658178441562520661055273,
  11845696835505436397913764735273748291716405946246049903478361223369666046634,
  18391057370973634202531308463652130631065370546571735004701144829951670507215,
  262537877325812689820791215463881982531707709719292538608229687240243203710,
  2187234489894387585309965540987639130975753519805550941279098789852422770021,
  19189656350920455659006418422409390013967064310525314160026356916172976152967,
  15839474183930359560478122372067744245080413846070743460407578046890458719219,
  1805019124769763805045852541831585930225376844141668951787801647576910524592,
  323592203814803486950280155834638828455175703393817797003361354810251742052,
  9780393509796825017346015868945480913627956475147371732521398519483580624282,
  14009429785059642386335012561867511048847749030947687313594053997432177705759,
  13749550162460745037234826077137388777330401847577727796245150843898019635981,
  19497187499283431845443758879472819384797584633472792651343926414232528405311,
  3708428802547661961864524194762556064568867603968214870300574294082023305587,
  1339414413482882567499652761996854155383863472782829777976929310155400981782,
  6396261245879814100794661157306877072718690153118140891315137894471052482309,
  2069661495404347929962833138824526893650803079024564477269192079629046031674,
  15793521554502133342917616035884588152451122589545915605459159078589855944361,
  17053424498357819626596285492499512504457128907932827007302385782133229252374,
  13658536470391360399708067455536748955260723760813498481671323619545320978896,
  21546095668130239633971575351786704948662094117932406102037724221634677838565,
  21411726238386979516934941789127061362496195649331822900487557574597304399109,
  1944776378988765673004063363506638781964264107780425928778257145151172817981,
  15590719714223718537172639598316570285163081746016049278954513732528516468773,
  1351266421179051765004709939353170430290500926943038391678843253157009556309,
  6772476224477167317130064764757502335545080109882028900432703947986275397548,
  10670120969725161535937685539136065944959698664551200616467222887025111751992,
  4731853626374224678749618809759140702342195350742653173378450474772131006181,
  14473527495914528513885847341981310373531349450901830749157165104135412062812,
  16937191362061486658876740597821783333355021670608822932942683228741190786143,
  5656559696428674390125424316117443507583679061659043998559560535270557939546,
  8897648276515725841133578021896617755369443750194849587616503841335248902806,
  14938684446722672719637788054570691068799510611164812175626676768545923371470,
  15284149043690546115252102390417391226617211133644099356880071475803043461465,
  2623479025068612775740107497276979457946709347831661908218182874823658838107,
  6809791961761836061129379546794905411734858375517368211894790874813684813988,
  2417620338751920563196799065781703780495622795713803712576790485412779971775,
  4445143310792944321746901285176579692343442786777464604312772017806735512661,
  1429019233589939118995503267516676481141938536269008901607126781291273208629,
  19874283200702583165110559932895904979843482162236139561356679724680604144459,
  13426632171723830006915194799390005513190035492503509233177687891041405113055,
  10582332261829184460912611488470654685922576576939233092337240630493625631748,
  21233753931561918964692715735079738969202507286592442257083521969358109931739,
  15570526832729960536088203016939646235070527502823725736220985057263010426410,
  9379993197409194016084018867205217180276068758980710078281820842068357746159,
  20771047769547788232530761122022227554484215799917531852224053856574439035591,
  20468066117407230615347036860121267564735050776924839007390915936603720868039,
  5488458379783632930817704196671117722181776789793038046303454621235628350505,
  1394272944960494549436156060041871735938329188644910029274839018389507786995,
  5147716541319265558364686380685869814344975511061045836883803841066664401308,
  14583556014436264794011679557180458872925270147116325433110111823036572987256,
  11881598145635709076820802010238799308467020773223027240974808290357539410246,
  1566675577370566803714158020143436746360531503329117352692311127363508063658,
  212097210828847555076368799807292486212366234848453077606919035866276438405,
  7447795983723838393344606913699113402588250391491430720006009618589586043349,
  7626475329478847982857743246276194948757851985510858890691733676098590062312,
  148936322117705719734052984176402258788283488576388928671173547788498414614,
  15456385653678559339152734484033356164266089951521103188900320352052358038156,
  18207029603568083031075933940507782729612798852390383193518574746240484434885,
  2783356767974552799246444090988849933848968900471538294757665724820698962027,
  2721136724873145834448711197875719736776242904173494370334510875996324906822,
  2101139679159828164567502977338446902934095964116292264803779234163802308621,
  8995221857405946029753863203034191016106353727035116779995228902499254557482,
  502050382895618998241481591846956281507455925731652006822624065608151015665,
  4998642074447347292230083981705092465562944918178587362047610976950173759150,
  9349925422548495396957991080641322437286312278286826683803695584372829655908,
  11780347248050333407713097022607360765169543706092266937432199545936788840710,
  17875657248128792902343900636176628524337469245418171053476833541334867949063,
  10366707960411170224546487410133378396211437543372531210718212258701730218585,
  16918708725327525329474486073529093971911689155838787615544405646587858805834,
  18845394288827839099791436411179859406694814287249240544635770075956540806104,
  9838806160073701591447223014625214979004281138811495046618998465898136914308,
  10285680425916086863571101560978592912547567902925573205991454216988033815759,
  1292119286233210185026381033809498665433650491423040630240164455269575958565,
  2665524343601461489082054230426835550060387413710679950970616347092017688857,
  13502286133892103192305476866434484921895765252706158317341618311553476426306,
  686854655578191041672292972738875170071982317195092845673566320025160026512,
  9315942923163981372372434957632152754092082859001311184186702151150554806508,
  17166793131238158480636170455452575971861309825745828685724097210995239015581,
  4443784618760852757287735236046535266034706880634443644576653970979377878608,
  21470445782021672615018345703580059646973568891521510437236903770708690160080,
  6932852445473908850835611723958058203645654625170962537129706393570586565567,
  17078326120157725640173982185667969009350208542843294226397809921509565607842,
  19251873001736801921864956728611772738233338338726553113352118847732921831266,
  13062907978694932362695258750558734366820802962383346229947907261606619788585,
  16576609187793673559170206379939616900133457644695219057683704871664434872406,
  17140499059660867342372156843620845644831519603574612796639429147195776838516,
  16226688173010504218547945848523900236290532501559570164276462499487632388445,
  2806068123803905806401128967330263340459046260107112845068533446899070326517,
  17788735370835052317224182711467216134690146479710634688273650370951230404901,
  9840665370904113434661468973557421114403401847108482949465899631150766783733,
  17357287363046228581837055771327121704742940914150998420465281177406182088510,
  8956082469997974864521346025916496675956939495318858500685756691488425559998,
  10583741436561099911914917245130852199607666337956354910388730829023746895549,
  15241902639811607164983030447109332729761435946009172128089506810551693978973,
  10889882303914055687481932975789161945462141459528413507160087442461090813788,
  19789561133254944544821898921133697408237804586549835559829396563401674817160,
  20741336668287037026472434608739333171202674306575625457456116338034432647230,
  17864073449995977742930566850933082711031717858550870842712972350665650521079,
  6017691253505466300212182439349954426085752315661098358839308909771637792741,
  5209125836207196173669497054522582922896061838702136844305036341250990710540,
  8138726312837322624537330169363664364899441867118983214176695868443641051381,
  15491983986041746833254372934846748393213690608865689646440909282144232382678,
  5054332867608171303802774230688792431028169804536607979111644888500809938980,
  15427030776591294577308915282298854681562344215287630895931797573417982096417,
  21754057982677295571284116502193272661309010996970316384923307174180521790164,
  16265286590463120486705206231835953324076688991892805307349612983237844034032,
  17679791107777049796013011282788633179411040182820636236163074053597517790779,
  4281652562868629887097957174897458165728741859103571825874408386197225591996,
  9168010397863299719604788533602757515513214141450093775967322808686129400625,
  17584182367226175071087689123358883902969885218985589531538416263709138156515,
  15671512310414658663135385639435845966109237059155734764323312289873534719186,
  10536294659491685326297777845632759824567028904726211134518740400643540109527,
  13431319759608247201135260841651365578663315527795431484765940626659812285319,
  9584697124715190200241839387725546204368618031045071660911490086723434692561,
  5180327104839158483066851400960171505063442195966219343315555549982472660055,
  18888217223053385111625483360538133292128748730565502371803782424772027937822,
  19535732913737027522540340630296365525208404217634392013266346283017745945894,
  8577759627886344995887423695190093296190181539234301534326157005220006624466,
  16793670928407147476673650839110019799844249677846432113010280456483595763987,
  13926032620965299897272071104154310460519723329016284975305942957859374938463,
  4794697578055472890255676575927616606591024075768967985031137397587590174501,
  3529566190782060578446859853852791941913086545101307988176595267965876143250,
  3975008029239568933166738482470827494289192118694622729549964538823092192163,
  17739094873244464728483944474780943281491793683051033330476367597242349886622,
  7367136451127531266518046223598095299278392589059366687082785080179161005418,
  11175297939460631138047404082172242706491354303440776362693987984031241399771,
  21687543815463985355165197827968086406938428974327951792877419032069230058777,
  21156136641989461785420005321350884477682466566148802533375726181416623358719,
  17347558768803521970212188258074365309929638984714303299899732035040892048478,
  16293716234695956076322008955071091921491953458541407305955104663269677475740,
  4206144021605871396668976569508168522675546062304959729829228403361714668567,
  19988050626299122864942213847548542155670073758974734015174045163059179151544,
  747972634423324369570795147739377097591383105262743308036321386836856106229,
  4612470951309047869982067912468200581649949743307592869671537990797895413707,
  9630852913694079049153027193127278569487291430069466630362958024525616303220,
  17941539917430916523930519432495442476511211427972760202450248798031711471474,
  20332911350443969653703295317915788278109458962706923653715140186132935894113,
  21764801803055897327474057344100833670291402543384934706514147201527191846513,
  18792043166429470991157980448329308661526906138700725174612608941551872082876,
  12308177224490762720061048892842527800271687977085172836705858261595655154325,
  6234555076867437297776538521925679658360922070165740193866337972293380196151,
  4651047048822067434403056477377459986292934655827821636179452835839127581305,
  4762047093602693619418269784972874862577325737690375448572644958129932507374,
  12373514879531674477721132062882065826558811149582829246378921774344318418269,
  452512704634345955634014968317367844987135264395068376894497483188243356523,
  21642936370936057063268550589361090955573362743817395689260298777690935495218,
  16170209200627740434842090607802586195654207376087117044989637541681675086276,
  11682826760471401430136435257946377996085824742031456481961511737883954750045,
  20628055165039718158878805520495324869838279647796500565701893698896698211929,
  16438375313036818694140277721632185529697783132872683043559674569424388375143,
  4855690425141732729622202649174026736476144238882856677953515240716341676853,
  11680269552161854836013784579325442981497075865007420427279871128110023581360,
  7052688838948398479718163301866620773458411881591190572311273079833122884040,
  10339199500986679207942447430230758709198802637648680544816596214595887890122,
  16310974164366557619327768780809157500356605306298690718711623172209302167675,
  4572051236178600578566286373491186377601851723137133424312445102215267283375,
  20933392620931420860078756859763708025350478446661033451436796955762857910093,
  10145870387395991071594748880090507240612313913083518483680901820696866812598,
  11173854866888110108878560284050142518686158431744851782991510385755602063727,
  3895357290105797542988795070918100785105415165483657264407967118738833241858,
  16358886674154007883356717944805100413481233709808000948036974385803613296849,
  10544067501284177518983466437755150442726536257903869254459488412549270232123,
  10495171258604974589451578238018388630585794890815982293891430761424812600427,
  13820724103604550843562070971473423552484851063169471886037640613650155173554,
  2334954333435579600152488915208745055087482119087065911968347050969338669409,
  15100284614446277058846085121308897497066957549089629374506920751044105723791,
  8493821960754696376711287628276980042183127459347650448500304251148421115590,
  18612435536889941393944858783110719304584209891406420832295898519317994950798,
  362101794940079733974215941991047456600874474038781578925062694203564740952,
  11020033081956343850903875701444955317664141075326494650405276926536449284939,
  9396289482656518627529185765935649373549564165735162258912975312413185691167,
  6879055176150676925438486069371149089824290576271090206945130252868108043422,
  12466610601804566637227883322591924115458766539177061670432424956205788935144,
  6570302110526154075173287644133038486970998888099669190857256824048085590052,
  20997862990590350605775941983360263378441519274215787225587679916056749626824,
  2642485040919927233352421501444361753154137311893617974318977215281720542724,
  18832940311494549247524002614969382413324906834787422940144532352384742506504,
  18751288968473015103659806087408412890105261892140397690496125593160830694164,
  13938622158186434739533995447553824444480420613323252752005511269934155122652,
  12878982657080117316101160964182202074759312554860119090514406868768962707099,
  13757859113119127982418426758782225628393556023865807897214601826218702003247,
  11817871682869491875135867072669251115204978941736982465520516648114811792373,
  11336448548896065624515261709306933490181794458266726453198857687608284871020,
  194970717714150352477887371297168267861902418496792228400198694925721020795,
  4999282817977533227652305360183045040853565298259070645110453061034932285549,
  17094174197873140035316532568922652294881600587639905417701074492648767414173,
  8484251464872873032022789624790167173458682056313339863651348894878144808746,
  10260366716129057466862964875306868898686918428814373470382979997177852668590,
  549263552864476084904464374701167884060947403076520259964592729731619317724,
  10052714818439832487575851829190658679562445501271745818931448693381812170889,
  1735373362835209096342827192021124337509188507323448903608623506589963950966,
  7998373949540733111485892137806629484517602009122941425332571732658301689428,
  9035170288660659483243066011612158174896974797912618405030929911180945246244,
  6458619567307414386633203375143968061892762498463026121155477954682976784731,
  12314261817227551876673777186352972884847144237148169773300066404053441924532,
  19869454329688183813243851218196625862680921049019496233616575272637276975230,
  20326917073492686652690019138603910654692396590122884746951129061818467704300,
  20403270805536666081472738304916561119325397964511536801752236086414818653063,
  2865941730880218719188224311916978807415673142487507504983320505748719154068,
  20614246027521726470902405957496110178017768563127335842405314212897493119848,
  12060194341463088508348622863463208827312128863463014006529428845777217660299,
  1128906798719793375274166820235650701301189774851381709919492584451845983197,
  19670876372911656158743764425809421400123168087389888660308456184201759209723,
  5647230694522866559497222129254930524469944430191328619422533907417776118543,
  318629082509194371490189248876734616088516535434806492900653650176451776632,
  13685970881538585172319228162662520285656571966985351768743970447782846353365,
  8283840607829148567836919316142994745766280854211662326632930274668867638198,
  8968895518159422029900464138741638511289476298837958524156654785428413265371,
  10061801991000917366002570579819627134666386452411986168205986791283562415829]

/-- Cauchy points `x_i` and `y_j` of the MDS matrix. Checked against the Grain LFSR in C24. -/
def xs : List Nat := [
  3199594333635724690631223705148086777693516380987532443736199664291900734511,
  16048415142459547861678519543891808877706869021297869872293560636353991466501,
  11244900211977901581342209579004102339645831123542519630105660736802715228473,
  7055442629157593263575857272217853562939879921067372589684498237391974815373]

def ys : List Nat := [
  20530942939538019179258618930839049476834579799206196934039206516862910699098,
  20737706055256742831153862344210379981499064370026995374674714660786954056730,
  16472364076693804471324717034990155227005079745290730654281793464291789138009,
  1610801455834993078772143306655602601124413795838698703231402305252934447989]

end Verif.Spec.BN
