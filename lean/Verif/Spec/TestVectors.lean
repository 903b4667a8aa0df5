import Verif.Field

/-!
# Numbers in `plonk/gates/gates_test.go`

Written by `tools/gen_testvectors.py`.
-/

set_option autoImplicit false

namespace Verif.TestVectors

/-- Element of the extension with the given coordinates. -/
def q (a b : ℕ) : QE := ⟨(a : Fp), (b : Fp)⟩

/-- `localConstants`, `plonk/gates/gates_test.go:18-24`. -/
def localConstants : List QE := [
  q 4962976205186800892 6982360466972099197,
  q 3587364333101709084 17496916837371484700,
  q 17287374881609559799 3152841633956965234,
  q 8531030241248616826 7753678118587211959,
  q 7622109056373824903 6523636236475969621]

/-- `localWires`, `plonk/gates/gates_test.go:26-163`. -/
def localWires : List QE := [
  q 5101665081776077058 13601771238484783081,
  q 13763997788502656587 6068443864169526207,
  q 10492880302699453810 11304418575668616669,
  q 2175168501339052813 3658211467579027796,
  q 11342710587435471757 658078906333318768,
  q 16590262768413671742 4678191900868819358,
  q 18412513594273328173 3981245463942959904,
  q 18150166316938544267 6968565044901838140,
  q 1048835939602984673 3511920575130606798,
  q 13693300152826538654 5872314861500881782,
  q 6394696263219721312 92364988976021720,
  q 468193345380249942 4951036536117371576,
  q 9660006729985637684 14762789799642492635,
  q 10091149087332313493 13279468039286967053,
  q 12007469191150580744 2495445179052731885,
  q 14225726459587943147 13484648741862607201,
  q 15365400400136175672 12227857303059870833,
  q 1717742269682481687 14319701537357602192,
  q 2130805637557027375 9674794597783493233,
  q 4200526016516623452 1757832412907480092,
  q 4159226258922372229 2121976810680943769,
  q 2887943290582259162 10337505797799617185,
  q 14760843822980496189 16331301823872182680,
  q 14715580754822129725 13761736659446638375,
  q 6925818640561435525 14142327999826777974,
  q 14048060513252076245 14860933194240516940,
  q 3928889853630846436 16211791673476822740,
  q 15980387576926781891 6238947314711778055,
  q 15694939331980119296 8708301222382733590,
  q 192757930858294268 5400388905722847256,
  q 17614358883814855964 11499208634388453518,
  q 9523994443422431577 6835394446482946098,
  q 10096606893378243201 8982086840326369907,
  q 7328922720001507777 17298728994563323488,
  q 7038859554184407337 6498153778103681368,
  q 10610651604960433540 18240735600936975661,
  q 4310901749476028644 17813866938235850894,
  q 12456949458361594924 16541357680870686003,
  q 13986559680062429806 14210541290696888125,
  q 10299578396192380820 18011235767871391546,
  q 747566550336808782 5892109075601553099,
  q 11613383633841665100 3562006923196410047,
  q 14971867523312360339 9835080574905235511,
  q 5487884847548072736 17112808386797082519,
  q 1687420180518659740 14003627304711288225,
  q 6760442482244819429 15796493945480647537,
  q 2639939427088481105 16213109089273184951,
  q 6186345082501710713 2529053005908871239,
  q 16270115914931256348 2789355919627681645,
  q 4586999018177783314 2427837399215959725,
  q 18143358622388343317 2145167333845152043,
  q 20367062449222124 14939961527015734373,
  q 16851694158642043266 5250789952541240163,
  q 273375074794411822 16211897175907793903,
  q 8905927930385832568 6540262589846603524,
  q 9283781971254844102 15115068064900745758,
  q 16002987404851668189 15226686847545140008,
  q 17201679792194997813 589849108691638964,
  q 13270753269614250355 13858862497673084592,
  q 3679908279346826560 10125726541855725943,
  q 9493227554592600240 13229107531594530196,
  q 10072423214517113799 1877804054697703518,
  q 9351494680554520560 12930187723253788505,
  q 9537056082833040850 3947445714701039423,
  q 978662253133020143 17432233037279205717,
  q 13408331971471826902 8338873650278204671,
  q 10455530172494355126 14614842120953588617,
  q 3066054670984065145 11061840675948823020,
  q 1215442291812236170 6970679356502977963,
  q 16254140688845356393 16413217415268481315,
  q 5571707217813279614 2506082641312169038,
  q 18179591596294163519 16131760445397495720,
  q 9500821197677833979 14137570623214003877,
  q 18159279414894480072 316120438770524969,
  q 18164288455905080997 12889510574086616078,
  q 7158952489901063870 8855957421923524202,
  q 11785615172910130564 13242859272114186921,
  q 7978627011292316159 12030929068833787030,
  q 5676253512795062173 9401396509276686822,
  q 13934555872940874542 12262482935570269103,
  q 17018864997992880664 8399037137658253821,
  q 1846702834278938262 13210394651984411322,
  q 18406563809882201846 15807625126691296911,
  q 16192554501791210701 15105514277710825451,
  q 16115514979166385045 5618092869410987045,
  q 9816852940756124129 1617435612712694609,
  q 15012743324956680415 11098953448520716956,
  q 7370750057902285338 15456123684241865136,
  q 14924801177398773859 1116868612459919368,
  q 509701279674911901 8606220700917290973,
  q 256371784527067555 18023759020251995084,
  q 4027645791496469270 6446906876250510281,
  q 8190141658485644545 3259909135802998300,
  q 11270185749533517292 7032460358965516338,
  q 12112891112487601597 3686732542066412082,
  q 18143522178445971138 6066438010126851248,
  q 16109160830754618815 2728516440557525242,
  q 14634072837475699881 423778353213757146,
  q 10421081673554059162 10142208889746521219,
  q 12957639310809930956 1709286023553869935,
  q 16217923109113456531 3257438610376598615,
  q 14024104132094810570 6065015478137587430,
  q 7972303368219061571 5413678307283424945,
  q 10367882107777269226 9366367173763419226,
  q 11506720810821148150 15210537421649867625,
  q 10979917526797364486 3365843489182711842,
  q 9176981360155624350 7315956459698675112,
  q 3964217770504101577 9088242192411952739,
  q 16243289324567090937 13379263550784156456,
  q 18105277122985331384 13639149553905751132,
  q 11145583988660932112 16125114195985557867,
  q 18437667738670181477 8593343353929068644,
  q 15549894364614350199 6234736889764963090,
  q 17753837009416762390 15297774054893249240,
  q 1465043006528110247 11029942851654974974,
  q 14312704742949520917 17324353686056674958,
  q 8078333430227959261 14797545414164578336,
  q 3544997838139687150 8846840377946705678,
  q 9981846866090807073 18142560414179130259,
  q 1256577435119993994 155745544208227129,
  q 6040293874299819317 10483265617246740662,
  q 976159477616343697 6356544693059700239,
  q 4771747444846377672 2466985401424965488,
  q 9549711421417753693 9543806479040458857,
  q 5277199124405775998 6251037001966593402,
  q 13103543598051591262 2001921170471454234,
  q 1254878001165263070 17587272030879777460,
  q 2300344156307624878 14356513038946626528,
  q 2482567400777596327 3314129985687795881,
  q 16492046206730922155 1312905854247159931,
  q 3061501132630116372 13315665946615810001,
  q 16415932954051444990 925217124969456536,
  q 9764657158286137619 16039332713210679567,
  q 14993545086997628961 18010329211070748489,
  q 17327862012036619887 16962349802452905993,
  q 4826313026336060985 3597777099127511952]

/-- `publicInputGateExpectedConstraints`, `plonk/gates/gates_test.go:172-177`. -/
def publicInput : List QE := [
  q 5101665081776077058 13601771238484783081,
  q 13763997788502656587 6068443864169526207,
  q 10492880302699453810 11304418575668616669,
  q 2175168501339052813 3658211467579027796]

/-- `baseSumGateExpectedConstraints`, `plonk/gates/gates_test.go:180-245`. -/
def baseSum : List QE := [
  q 9928715244459351681 5344081500364361215,
  q 10167164649082076581 15450889555489725096,
  q 3546584706462116594 1476426705388693036,
  q 12648634003162244983 2239452344495239178,
  q 2301087631440580451 11975672920337250307,
  q 14001554463269171732 6953207277617809048,
  q 9895590040747031510 1356956949635190505,
  q 14939964178677988571 454717738260444218,
  q 12201660109699192297 12502457673278583036,
  q 1175543972635147885 11103026408792334489,
  q 3384025741923988904 2656764746353452717,
  q 10849522185534943138 13172212508084788997,
  q 10509522572526523739 2090707475955491976,
  q 13692600715410336206 7227633217973806771,
  q 8471053080480597138 2646922138422495173,
  q 555344530120410083 13860459564781531385,
  q 8748801107049442833 9263752460533085733,
  q 13633964398888639692 10068133633095351031,
  q 6911322073377914708 17978361073083837803,
  q 11223090828346729804 5006610230932979596,
  q 11581626217660221266 16347470001077006094,
  q 2924189901864366701 4309265474738828848,
  q 7275314468944461178 3109308884739285751,
  q 12416988612575693809 13772367397588066248,
  q 15438805794425696237 5809350894111990599,
  q 4275145128501503120 13230668146909969114,
  q 15244699495724739585 7672322205441472064,
  q 5429809680618805220 3153880467220264060,
  q 14715345489518514160 2246036712337629635,
  q 9359342125434211935 7844760208539761732,
  q 17550561700498841003 10851755490050776878,
  q 12192385328855013814 6629056869404844416,
  q 3424745785197724925 9833599393425172230,
  q 8602078107149096927 6592109323720773368,
  q 4109716921881297082 4396469548700606105,
  q 10400304110319417426 1229823145437740976,
  q 14853277673343952974 7653131044140686982,
  q 15831955783787857197 16541106185743830609,
  q 16097830673407036871 917501749911433098,
  q 6819428296662518848 15325182544903569500,
  q 3554857310728040215 17540168721765377170,
  q 7246216899469226885 3184709231158489554,
  q 3462793508732024933 13410498916934897793,
  q 784714181705176804 8079390288171846846,
  q 4592501261546923410 6046244648190342248,
  q 14100558314779073910 9589305391181830029,
  q 7208216654581381179 16662177305876430630,
  q 13442246990998561849 6359024918649040199,
  q 16196376030005699590 5656446490425854681,
  q 16279173216505198700 6278440230935274234,
  q 9299204333782277508 5539548698065086849,
  q 531539748103362347 17008402782657673980,
  q 11956287871118080485 17776888431041950837,
  q 16795401491637949606 12112971435724505573,
  q 10141270150228316653 8738825159351228227,
  q 4249416130151320263 4171109024390883108,
  q 13565954345346642147 11300077318998472624,
  q 6006413348327738680 17429146764001291339,
  q 3009379005164242386 17911649148503516453,
  q 4172202865347441020 6700979848078030374,
  q 9692174554453081047 16461309050820528716,
  q 16012555505188709835 875036531415994728,
  q 14527388813134058525 13371873777459370318,
  q 6493493657980111839 14874520839734823069]

/-- `arithmeticGateExpectedConstraints`, `plonk/gates/gates_test.go:248-269`. -/
def arithmetic : List QE := [
  q 8251494922795803874 7884328911897949424,
  q 17545754596575389449 15111927979676704385,
  q 10052040965126353731 1448153912054014611,
  q 3878848318701063854 15999854355391952993,
  q 2194699804496089007 7489112350095609056,
  q 666656317372820215 8333111246649438880,
  q 15500013716804095980 7739144386812042617,
  q 2815612394018416154 15839168197108305099,
  q 12980309813768330187 12446111953378048591,
  q 1389916348936822477 2080258147396834809,
  q 3676770229830052631 8984521981419906260,
  q 4759606161035299488 18415228017149216426,
  q 6849567585629675684 15231001333591586187,
  q 17831496121270832947 1868580989876710210,
  q 12226832860244216901 12352098694767236965,
  q 9795530155924375772 4833402654226660686,
  q 7421277748600887772 16979590244320625600,
  q 4212532134312824848 7938725153260099101,
  q 17718231164451799422 13363195988334771788,
  q 5414385531680474153 13600409983387272243]

/-- `randomAccessGateExpectedConstraints`, `plonk/gates/gates_test.go:272-299`. -/
def randomAccess : List QE := [
  q 18367067186009695282 6227937229941915629,
  q 342627832935644960 11262336464371657587,
  q 7711502047853221895 9814305320358879113,
  q 2436675870898619939 12171743011114835714,
  q 9224796650008092960 197827193844666436,
  q 7661651717350955969 3929163527437938921,
  q 11994613277879586781 2918199453077793278,
  q 2133315582796573410 9920472598641951727,
  q 5763420675219782924 193200772658790662,
  q 14322103909897767697 2455403487869979318,
  q 3583177870835306708 15956920993825363087,
  q 15767764327818217757 17814936958431909187,
  q 7224551806569620055 1191241782303323453,
  q 3994846439282900915 16007298430807731888,
  q 1904864531973789879 9374437322489636375,
  q 17617411600595291430 11804426503917788826,
  q 5010213812557284606 8276410914978849008,
  q 13701536021647106057 5043776904396037625,
  q 4336267979289896624 8771134635816393433,
  q 17885926480537171976 9644095314646547597,
  q 17179233085824331332 6950525108693323209,
  q 9461258042008745175 6766975264204597922,
  q 10838154179711471883 16554457937262927355,
  q 5823858951686479642 10171201631442530906,
  q 17476953112985367168 12062851564787792403,
  q 7909573710893929152 6207515797705444652]

/-- `poseidonGateExpectedConstraints`, `plonk/gates/gates_test.go:302-426`. -/
def poseidon : List QE := [
  q 15438805794425696237 5809350894111990599,
  q 105238306594298866 6398155585902798861,
  q 5256232026568856387 9253448664982005262,
  q 6559974022172208218 14478753759394222537,
  q 7036928093413865537 895644692646980845,
  q 6350074916129003337 10418298512623677843,
  q 6618288817893266284 17565920952415773065,
  q 7214268149308735221 17797640553663908886,
  q 17038147867485750883 10766691853641769251,
  q 1228066111137794024 1267834319488006514,
  q 15317834050441961579 13280896488837969140,
  q 10135227968960430585 7096433509203324519,
  q 10733417635899979276 16819459255105516700,
  q 4231839251429338586 3213678047797020863,
  q 16271445286187692537 15377656608157234934,
  q 9356442829698587975 14633910545825415036,
  q 13952390018297698734 16325393355066618599,
  q 11399251131586292643 16257107051968717815,
  q 4274092107872068929 15550597684938436610,
  q 13076618331457049912 4958059540220054374,
  q 11650097218963026123 12070947109214611020,
  q 2700303408109034014 5968338348636871194,
  q 11508005723655482353 15224088756564969467,
  q 9328231423353697829 10577349809783627634,
  q 556544259468984890 13376447539117215836,
  q 17319865455991589647 588985536671201497,
  q 9528470026616131077 7257040911301352274,
  q 14316182132889623635 9589165219691594711,
  q 10405802815809041956 13917007789819955074,
  q 12560668105252495616 3591188232548111694,
  q 14765117357942682611 10757853341059462467,
  q 6099902163260965551 11343816861356056114,
  q 1083174255539258286 7587979659522435417,
  q 2882552180249608570 7966658657757662554,
  q 13490914415473336227 63845168436289811,
  q 9459794640071212413 13417331052474309186,
  q 18328090807516092318 11807085063599693782,
  q 281059606944328759 13352248056867426135,
  q 10905177588660050370 6597328385789442670,
  q 8426356906491012567 17214424336396001022,
  q 15696035667318839817 13285870048485492127,
  q 6110244444680672193 17558548349689468031,
  q 14614078615782659381 13184024850613726857,
  q 1541592450520953410 18339388388315914026,
  q 8059386643769157052 10208764910817462305,
  q 7612459820354975117 7582060685277695926,
  q 12515587043516861064 16099239041553682288,
  q 14269196473871652102 1225067220600668761,
  q 12691255077510636187 14147201911063761532,
  q 3001134598446056765 14313090483058155636,
  q 13964993951988177315 17731737838539414275,
  q 2686259154263524343 12198712301337570859,
  q 6730431920128908773 4325394084875720868,
  q 988774723104779817 8388266879854983623,
  q 8233087560647959985 7751837576340060020,
  q 9546113779017699592 4049920632309298778,
  q 3283837251411237060 13560940050752580093,
  q 10388838746951897109 454393475113110282,
  q 2208016536897042313 17105586471193083308,
  q 17683990802267567604 15398473956537380705,
  q 70612752050386177 12349994002954022957,
  q 13794244952989612728 15888581169565306348,
  q 8270800566553141412 1516938823651329185,
  q 643507941153616368 3893451216814345882,
  q 16464837166410943694 11108183142967610977,
  q 9748621820629198396 3766489907402036319,
  q 3115179618981245947 10160994694067456423,
  q 4497210741038443097 6445446770984515259,
  q 5470898125882256227 8249357863801204908,
  q 16762380205819269382 172510727904060494,
  q 7920011253931301350 9681193995678483756,
  q 8258951043315574232 13137471323476190588,
  q 4339364527801481944 16862579756243326257,
  q 8980029737458438570 14651625524257781922,
  q 17935993907375677671 5318319737405476029,
  q 716791501623731831 18425818060734993303,
  q 601549076806364660 12303919727550310013,
  q 18026376178895562118 14687420532194520529,
  q 16943892475592026666 7451688507369746594,
  q 8724072308842121373 11662986251379699921,
  q 3201079129905071298 11542621183935331871,
  q 9889739070824270529 3891825006545095657,
  q 15538978715382418651 2419672705453973015,
  q 3001525234835174062 17115969716224377534,
  q 18001237923148428045 2198015511953873786,
  q 14186741561112601666 13156405199205086627,
  q 10166592177477126663 13586051001537885658,
  q 8678352780562557555 1968366090049630482,
  q 5627999915794840395 13597556392696072088,
  q 9291327714650886898 2411361999629511024,
  q 6824943761729555359 7484507209360908175,
  q 6276580084700132178 6246691657613415035,
  q 10736230409698057656 7306720219045064925,
  q 15442170485732017109 1739984147692575725,
  q 4448878124301402845 18436455114977877323,
  q 638012599023653143 16265955502846626936,
  q 6793907577559820653 15343551069946118619,
  q 17903286158968614509 9559701571149911252,
  q 14652006464960400785 50421020503848143,
  q 9452858006432860845 2625726945677447428,
  q 853640589013584892 14655161412118141649,
  q 12863832006745352780 14564189651136231029,
  q 8551517270810530438 10859465327758962622,
  q 10113468436120661191 16040944006557911589,
  q 4921439225277518643 8399175422965154512,
  q 13068240354812957183 8520393046894990946,
  q 1189183420107219532 18066897627856601789,
  q 3997900004790871153 1269718920871578117,
  q 15438784576472256462 9577304425687441047,
  q 17158083218962275971 17379790274576244684,
  q 3470452736936929010 12769555113044633230,
  q 18389243269515626865 8023737530782576805,
  q 3529213023405995549 8829896701928525938,
  q 14072413770981804653 9660693090213237836,
  q 14369435038913678671 7659129852562422871,
  q 6779301728445724040 18290152515233036523,
  q 8113954200727174254 16490002532983549952,
  q 11465655095604389561 9066100972825318010,
  q 15998691377748321442 16970045124898180365,
  q 8424730626816696233 17168184083072399403,
  q 1941959246552302666 6751013195867127440,
  q 1907519456922228224 689311996911195932,
  q 16277197060525435740 12018417724719716072]

/-- `reducingExtensionGateExpectedConstraints`, `plonk/gates/gates_test.go:428-495`. -/
def reducingExtension : List QE := [
  q 12832102811425062912 2979695993654444095,
  q 4822478941232734654 2600327308894333341,
  q 12450653411048814602 1161667420593062956,
  q 3145631295867407955 1702059944088737075,
  q 4597190091407364771 4257077286672555409,
  q 10177664366491925772 10489575701186298604,
  q 2754621968864722399 12087963411706301871,
  q 534408217555793149 12559345737194357169,
  q 9508765820222303634 14102461861317982082,
  q 15070954032232801974 2078249670161696735,
  q 10465809629504954691 16223748685835312497,
  q 10957196413441800202 3841214025425953691,
  q 18438848195188240825 5697684145424680565,
  q 565455534266129104 12543354947937779806,
  q 16376588778962418386 1273250903423198860,
  q 4128104469872810921 1433037233801071123,
  q 6011337242244377340 16068106780789397185,
  q 4741354504248328629 3000853646720964165,
  q 13064594310789140866 10950406741883971259,
  q 17079026691450750925 6522027970928818261,
  q 13158136237489326416 7677629162183242732,
  q 14741398060174921234 2960243215156352194,
  q 9111161782199179468 8010960876261510099,
  q 1404837029582986528 9377230983302764181,
  q 7086781234814455260 7571558192372650697,
  q 5627013434503229817 14984048934926143304,
  q 2115495655441739405 1656704965110317534,
  q 2311846135199651566 17438437808346967358,
  q 8679806319651401773 3278538718508560579,
  q 7897681105604536660 10966573925848082711,
  q 5451958405177630542 9207735009647199721,
  q 8825486358121162697 15997852519026522914,
  q 475225211669491693 1907827506180042626,
  q 16033031089519343732 15009948832718035672,
  q 5048598591200038865 156574475928756206,
  q 3580311624647961767 6084715537433906996,
  q 9121009921295095324 18407759801432275235,
  q 16569013039730214123 3930908108224055041,
  q 13844066138909451365 6585754647203519368,
  q 14133345335167543367 3946807387480232364,
  q 9876285028806980582 40898067822033734,
  q 6293483059765701407 16009270905706605849,
  q 11635947241393753594 5053395178858294866,
  q 16062194595705166277 752574348595159408,
  q 15607597716340375230 10428583315124220143,
  q 6975301479426228318 16528136630898216147,
  q 16312827398430223622 17909475722464415780,
  q 2273087545743905667 12405446777919046866,
  q 14781933506876191161 4464109151368149713,
  q 4226716729950095934 8908251769229049654,
  q 8310476487592089883 3834672170570438819,
  q 4285568636604940795 7183765355016179794,
  q 14300853697824059506 16287477445929928328,
  q 1238186507267033247 12357102109973664962,
  q 15607388919140050768 15421065238069253306,
  q 12418734453826432586 12072056126139297564,
  q 3924467115116313620 1212362379653628161,
  q 8252514850759544679 7893938436444134034,
  q 711675815009325200 15678724077367989757,
  q 10920573406841924033 8189696933773246220,
  q 9737295100232588618 13383462338120177171,
  q 8983013033045953935 5301160793103788033,
  q 2086512740154274197 9511985884344255651,
  q 7404726366142548080 11257391295697140486,
  q 10045968629671906256 10721172752468420959,
  q 9499240237398016191 17996498955496851489]

/-- `reducingGateExpectedConstraints`, `plonk/gates/gates_test.go:498-587`. -/
def reducing : List QE := [
  q 4189565386714553574 14972099283023295929,
  q 4811224976739448335 17901409314576454439,
  q 5140059407491502784 1144330742785924570,
  q 7077436393778991453 13398199711778224412,
  q 11213768990622043903 3886053425349218150,
  q 2946099412905029571 16515307040211357295,
  q 11766152895257088950 12561350435611412995,
  q 15559670172179416359 14246884723129607378,
  q 5240707719525548158 1640773599873992510,
  q 14358821079049832289 2746855687282611080,
  q 3214086216088588558 1520697626094905530,
  q 9834748172213967248 13487010468070558667,
  q 1423442768503334248 10945790255819476518,
  q 2308372186436983690 8803174935784778070,
  q 9995833078447025147 9074310518079663649,
  q 14149697874498108875 15875817120435194028,
  q 14564758547073982656 13386335755835868953,
  q 6432745607675418074 8030247499566565321,
  q 17308235779926438117 16843697410674499818,
  q 15507223129386571868 3935281607585552366,
  q 16041402982622709805 12432717078068957835,
  q 6455955094164032063 2435635342699968412,
  q 9814981570869789379 5009257884262115226,
  q 9452031978763862902 15609083603899848676,
  q 13532623109002857304 7324541443245949391,
  q 7899075212455453622 14276489152002439614,
  q 2403019844704266911 5922544710604013781,
  q 9709471021111675830 5538539165068927028,
  q 15700585567216041265 17893894492159337326,
  q 8890003199638063977 17726621767321974437,
  q 389239919653982052 3497778410650283061,
  q 845227572644858827 7040344997713673855,
  q 9861253052349275208 1880449137233040023,
  q 9239454143759318515 7968256557482935820,
  q 12576879243038758854 9784626207087825707,
  q 14811673587164089973 10785522535030299714,
  q 696437091186897361 13293602092569033065,
  q 1240161179290551759 9542275505416038259,
  q 5298553932515957396 14597738151157731445,
  q 8472517818840783225 7685861056688910111,
  q 10067665523858551777 13019870415534016025,
  q 3030966178198674680 10107838846102885642,
  q 6762889891370677550 16151528872832782368,
  q 17207754552662723664 15168039969859158460,
  q 9111161782199179468 8010960876261510099,
  q 1212079098724692260 3976842077579916925,
  q 8111924351272477885 1472738463707044435,
  q 14549763060495382561 8148654488443197206,
  q 9633247645878352168 4173826759172401145,
  q 13429667484612728110 139708813783643870,
  q 11164941208889426013 3615779386887825309,
  q 15733773570058687441 11172582394325691371,
  q 11237663549079845099 375954911737718734,
  q 14815280969174152094 17903238907570421232,
  q 12264332321023153985 4996015210046477989,
  q 5733452693326962912 15445457134261228447,
  q 11339891595047637420 762619178430884475,
  q 10413672060220880988 2522708614237496949,
  q 4759794002943168525 8366670758049431064,
  q 11081128192182141387 5264843790841556843,
  q 16467547707866820269 10395994280728082037,
  q 7372902852922723938 6597057511414169148,
  q 1246550990665510080 369146659419534786,
  q 107137977263990694 13480217899797734610,
  q 9352391006524927052 16474580549927501346,
  q 11475195577527382963 16771481018793784004,
  q 7763817490144412733 7847907679735875325,
  q 6954934416977006194 1588175103882481774,
  q 208699790124989138 104050776110144395,
  q 1999712470949493845 14640293671425837284,
  q 17489389210332023693 1485853484717956236,
  q 13389678828109836153 12239927773742888217,
  q 7279356606052782033 16889809967345118643,
  q 5530632913824527303 6593916246324540830,
  q 6517985275757881887 1094679265639341934,
  q 16005022297334791008 2231375568117939019,
  q 7801581545066110268 16195585011186011335,
  q 2346311239309318787 10194252071441594046,
  q 1333414916806612489 4078668601880487193,
  q 17162202837341088150 3946492721743094611,
  q 2372952988964786162 14459600129361968991,
  q 15958985504784681452 18297567352909625870,
  q 5468110010239944205 1297673223075459793,
  q 5916958362061888790 12686064186569549334,
  q 17141186363273294375 5330662447468959333,
  q 9597329746711776008 13290917949843243492,
  q 9061260430036409956 10642927510372211646,
  q 9766392710518436993 1864738510099355769]

/-- `arithmeticExtensionGateExpectedConstraints`, `plonk/gates/gates_test.go:590-611`. -/
def arithmeticExtension : List QE := [
  q 14556369430662721230 4131185000258568561,
  q 16378466706564867046 1439052841211884527,
  q 8231479592213172392 8409169031581010782,
  q 5465959779370835700 17016702720873000919,
  q 10611951970626560747 11015475306668399283,
  q 6566683434087540889 7528162900166069532,
  q 13167150559619768862 15618445283750881414,
  q 14768578132422983729 13938407401080069149,
  q 18415232841919605685 15088528771916927003,
  q 1305736199568141897 16885250849392919438,
  q 1425549592953864549 1074162823816629148,
  q 12616210534513128803 8618852250387339753,
  q 16775588216530426832 16358913853138883160,
  q 236831045676808583 16231688985959438642,
  q 264831195814170716 9852325877887114505,
  q 14065541678187010167 5594602585697559035,
  q 2354884863196165822 12715102096346587892,
  q 5881791209743274427 1913490798645218291,
  q 3621056055759314065 15076066883455218113,
  q 15382741815013668685 5674166256062091576]

/-- `mulExtensionGateExpectedConstraints`, `plonk/gates/gates_test.go:614-641`. -/
def mulExtension : List QE := [
  q 14558272317822654580 833215892324477732,
  q 9214806296346539012 7798842673847612486,
  q 4933313819253472884 17115399133104593821,
  q 6382294466663581729 8863722647290983592,
  q 5274430631758054179 1761561038204031519,
  q 6975818216493368257 3643153118790582585,
  q 9382708770545050748 2040988809014144797,
  q 7526300035416853327 8692405747344509879,
  q 6092157877842311771 5767914690949635280,
  q 3636879736078164520 454792903724498694,
  q 5982213211108308130 3906161453783544349,
  q 1353999567434327832 3912356165392315450,
  q 3866250282554618990 14215790041865539111,
  q 16972659905821970574 2550277288305104044,
  q 6739526869755283609 4676222628249438354,
  q 18314541579046409607 13871312232745645647,
  q 13309435341537760906 10879629980202564460,
  q 8149445702527176593 12079787385488004774,
  q 141936326832390573 9852981409020916366,
  q 1174277439708011834 11084240604056156653,
  q 3890191667424476902 1428130379783403165,
  q 18264002552181363059 17855293364353531924,
  q 1657518282890904146 14874491364689193658,
  q 9091236796792826297 18232800981045995203,
  q 7965395014621568897 15643014489741966811,
  q 14048129594584036134 8880723489474532129]

/-- `cosetInterpolationGateExpectedConstraints`, `plonk/gates/gates_test.go:644-657`. -/
def cosetInterpolation : List QE := [
  q 4489474937116132272 17966585078409280607,
  q 6284821823752419954 15732864946173560339,
  q 12879723719779486283 983649133858104142,
  q 17293136937393925432 4033193666483141970,
  q 10809912963683055710 3166226310305151244,
  q 13051854837169808452 12636844243964449888,
  q 15180422697988222141 3172471974421734205,
  q 7715327263429433235 14269461688353925342,
  q 7348198793616724228 11426363269581761252,
  q 6529761710182712179 15370899814178958348,
  q 1312640305437468539 7416725026793550034,
  q 7435934314089172319 8931511780309647479]

/-- `poseidonMdsGateExpectedConstraints`, `plonk/gates/gates_test.go:660-685`. -/
def poseidonMds : List QE := [
  q 7821764612044984890 11645399715550800761,
  q 7054686226368496581 3456599659382547499,
  q 9932401212201586910 15935184283784595275,
  q 14850232436396031573 10054869170615550942,
  q 17859784214232634920 3141019307077014353,
  q 1316926243065869924 5447399801288094074,
  q 12198784876096903918 10976551553233951532,
  q 3280500541526908156 1813330468204166522,
  q 6788483962196012692 15983747071745976199,
  q 3372073447943379816 9356836818900551936,
  q 13834815153351545489 1073963211629459057,
  q 15376716257200419051 16044430964768811142,
  q 16752138206727891451 6303059651352280564,
  q 17195959285241102556 10990140109461952122,
  q 16812594260057394716 5841834090350584793,
  q 17706037262140285164 8626184557677598926,
  q 6826825357492466350 17865947929743097490,
  q 13679887869755160737 16481628195512675795,
  q 7881296289635150478 15368930380652981390,
  q 12075171536836315078 12900345753644751245,
  q 11461113822534614109 2937306395206947398,
  q 18365572828001780476 4309067613742479326,
  q 9460729461000852035 9232487430983842586,
  q 9920817005263779727 16326126591726196229]

/-- Weights of the interpolation gate, `plonk/gates/gates_test.go:737-757`. -/
def weights : List ℕ := [
  17293822565076172801,
  18374686475376656385,
  18446744069413535745,
  281474976645120,
  17592186044416,
  18446744069414584577,
  18446744000695107601,
  18446744065119617025,
  1152921504338411520,
  72057594037927936,
  18446744069415632897,
  18446462594437939201,
  18446726477228539905,
  18446744069414584065,
  68719476720,
  4294967296]

end Verif.TestVectors
