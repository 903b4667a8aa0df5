/-!
# Auxiliary tables for the fast-partial-round proof (generated by tools/gen_gl_consts.py)

Not part of the model: they are only used as witnesses whose properties are checked in the kernel.
-/

set_option autoImplicit false

namespace Verif.PoseidonGL

/-- Change of basis `P_i` relating textbook and fast states before partial round `i`. -/
def auxP : List (List (List Nat)) := [
  [[1, 0, 0, 0, 0, 0, 0, 0, 0, 0, 0, 0],
   [0, 9256917872013944843, 16687757000829461707, 15919568759443364026, 17628276356247382281,
    17976887162229714000, 9191356322801962495, 8244675934684975988, 7268127472833019981, 9602108300053878928,
    1540311261654516052, 15582992301522062240],
   [0, 15893897022228540664, 12764541860482007578, 1487496629277845135, 14211060579632108547,
    6791692987299703477, 5412105005886646653, 2125569474183208192, 5600686741053600354, 15610298188943525805,
    10517970165082627573, 1540311261654516052],
   [0, 13949760578536372653, 1073506034073544330, 5122203447763166523, 9180588347636943785,
    6455531853563710059, 7077135177323540712, 1761883289931249101, 13703919263985638019,
    13828402413953013890, 15610298188943525805, 9602108300053878928],
   [0, 10441609312974976515, 12178624353196374758, 2200314810679404686, 11858291964101661402,
    506729933833272474, 13768926573657667599, 9202082607097456696, 155673126466762010, 13703919263985638019,
    5600686741053600354, 7268127472833019981],
   [0, 4189528951266599854, 9093834777404014814, 13521131922395904812, 3422342838493228737,
    12479288794463684010, 14009018616032686342, 9665676628089346926, 9202082607097456696,
    1761883289931249101, 2125569474183208192, 8244675934684975988],
   [0, 45832257923618046, 12470775297641857694, 16674096007358536750, 16717315056857949245,
    12357738834545821552, 8447498431838444578, 14009018616032686342, 13768926573657667599,
    7077135177323540712, 5412105005886646653, 9191356322801962495],
   [0, 8607345711887993138, 14365012582629183475, 12650089191056401741, 4874593437852546498,
    14664271473160014313, 12357738834545821552, 12479288794463684010, 506729933833272474,
    6455531853563710059, 6791692987299703477, 17976887162229714000],
   [0, 10398036555777403988, 17322896464470575084, 15914053419498374975, 14575430061120165237,
    4874593437852546498, 16717315056857949245, 3422342838493228737, 11858291964101661402,
    9180588347636943785, 14211060579632108547, 17628276356247382281],
   [0, 13806692727776539476, 12929063850085080619, 14774060794419120357, 15914053419498374975,
    12650089191056401741, 16674096007358536750, 13521131922395904812, 2200314810679404686,
    5122203447763166523, 1487496629277845135, 15919568759443364026],
   [0, 4187764176355919243, 8008291477586393637, 12929063850085080619, 17322896464470575084,
    14365012582629183475, 12470775297641857694, 9093834777404014814, 12178624353196374758,
    1073506034073544330, 12764541860482007578, 16687757000829461707],
   [0, 4771889745340348367, 4187764176355919243, 13806692727776539476, 10398036555777403988,
    8607345711887993138, 45832257923618046, 4189528951266599854, 10441609312974976515, 13949760578536372653,
    15893897022228540664, 9256917872013944843]],
  [[1, 0, 0, 0, 0, 0, 0, 0, 0, 0, 0, 0],
   [0, 18346960785920460215, 17128189123392221520, 1324214567894216886, 4302183014826523764,
    7261221762764988068, 8676372547237934532, 160535360614002409, 10621280227124305428, 5340757366748581815,
    9636424221955193518, 11133821758973619278],
   [0, 8093615641539070553, 13465664504516242106, 73740208422178972, 13762057671891251015,
    16380441032317863961, 5559757888093083269, 8147071396411082245, 762228228437135633, 9860876917416230402,
    8420204074422570763, 9636424221955193518],
   [0, 12859724860504235545, 4023528966135813720, 7836929841187135609, 2988569466848136699,
    1715397780534917616, 1294384892143830942, 6491799791188503309, 13035606063905764900,
    17138764312774507665, 9860876917416230402, 5340757366748581815],
   [0, 16142165085927778901, 12401472579760781729, 11238873738011306498, 15029432753497363500,
    15657934849116743311, 9275891085392666084, 8408397037257929777, 8970264966789130657,
    13035606063905764900, 762228228437135633, 10621280227124305428],
   [0, 16891247326561572722, 15329808495925492383, 10089146309877167611, 15311758972339310438,
    17163539466347991934, 18158547550096656652, 751057368575655381, 8408397037257929777, 6491799791188503309,
    8147071396411082245, 160535360614002409],
   [0, 7421729306049572572, 7335046387604358548, 15853638845894309952, 7712236382478369424,
    8006812615462037308, 7680508335307431819, 18158547550096656652, 9275891085392666084, 1294384892143830942,
    5559757888093083269, 8676372547237934532],
   [0, 10653191462543640224, 5558524620072913011, 12927773883329924488, 1523966021330223628,
    8641427536744040385, 8006812615462037308, 17163539466347991934, 15657934849116743311,
    1715397780534917616, 16380441032317863961, 7261221762764988068],
   [0, 17185282016193426248, 10070793650125092662, 767735082131721258, 6465555469658863531,
    1523966021330223628, 7712236382478369424, 15311758972339310438, 15029432753497363500,
    2988569466848136699, 13762057671891251015, 4302183014826523764],
   [0, 14639130929784664933, 427556766829230245, 6246976501547603918, 767735082131721258,
    12927773883329924488, 15853638845894309952, 10089146309877167611, 11238873738011306498,
    7836929841187135609, 73740208422178972, 1324214567894216886],
   [0, 8844593133551947215, 2515700767840106441, 427556766829230245, 10070793650125092662,
    5558524620072913011, 7335046387604358548, 15329808495925492383, 12401472579760781729,
    4023528966135813720, 13465664504516242106, 17128189123392221520],
   [0, 15806393991569632379, 8844593133551947215, 14639130929784664933, 17185282016193426248,
    10653191462543640224, 7421729306049572572, 16891247326561572722, 16142165085927778901,
    12859724860504235545, 8093615641539070553, 18346960785920460215]],
  [[1, 0, 0, 0, 0, 0, 0, 0, 0, 0, 0, 0],
   [0, 8528595735991520615, 17863701968384353724, 17838387326716361276, 4178409719426224606,
    14011778654309941143, 3815206349593896539, 7876710454340028849, 17180324308928923728,
    17248245530031062353, 17560832962289860990, 13843348217560072332],
   [0, 14884467400165788098, 2677461219275069263, 5688015988607459021, 9102657621582203617,
    8960639802080786402, 17501236994222632293, 12983096639304490442, 7736960190137274358,
    3975274172872690226, 14779459983103199528, 17560832962289860990],
   [0, 16477074757844335369, 11511788714062107161, 3735472459381238742, 12331363612386804929,
    16961307845949644568, 4299279395844841570, 9985916436280508186, 16805144475256223211,
    17471907807827662903, 3975274172872690226, 17248245530031062353],
   [0, 12221464148106776734, 1723239202392762962, 13321749303333426707, 17946936534424712149,
    5002987636909171046, 13491701131047582206, 14547427493417877725, 10950933580154682467,
    16805144475256223211, 7736960190137274358, 17180324308928923728],
   [0, 16864732777355998009, 12961291640936566484, 4507458144662643770, 5170461110803498673,
    13489476274610065809, 14493028227777816248, 8943622062494910222, 14547427493417877725,
    9985916436280508186, 12983096639304490442, 7876710454340028849],
   [0, 1070878586006693563, 15680754918689542952, 1798357542683716576, 18231407360233953506,
    17590699483894741020, 8941542616118852119, 14493028227777816248, 13491701131047582206,
    4299279395844841570, 17501236994222632293, 3815206349593896539],
   [0, 12396382478241646901, 684434194453685058, 12955592279140753961, 4373188543371944549,
    1425611229995143512, 17590699483894741020, 13489476274610065809, 5002987636909171046,
    16961307845949644568, 8960639802080786402, 14011778654309941143],
   [0, 10818031012574795286, 16665229066443161758, 11683934034340084372, 3955764831553084772,
    4373188543371944549, 18231407360233953506, 5170461110803498673, 17946936534424712149,
    12331363612386804929, 9102657621582203617, 4178409719426224606],
   [0, 4182675896123005596, 5070421568640747784, 7052510625925658419, 11683934034340084372,
    12955592279140753961, 1798357542683716576, 4507458144662643770, 13321749303333426707,
    3735472459381238742, 5688015988607459021, 17838387326716361276],
   [0, 1616891746877467931, 16472966925759588598, 5070421568640747784, 16665229066443161758,
    684434194453685058, 15680754918689542952, 12961291640936566484, 1723239202392762962,
    11511788714062107161, 2677461219275069263, 17863701968384353724],
   [0, 10620082063124664307, 1616891746877467931, 4182675896123005596, 10818031012574795286,
    12396382478241646901, 1070878586006693563, 16864732777355998009, 12221464148106776734,
    16477074757844335369, 14884467400165788098, 8528595735991520615]],
  [[1, 0, 0, 0, 0, 0, 0, 0, 0, 0, 0, 0],
   [0, 4493074297442824513, 10346359869509089095, 17308358903886256474, 1851112032239856745,
    724384779425926774, 14107235492756297941, 12385413400535607570, 2846421722960263397, 9784845174587381689,
    12953692345056074332, 7008586557666813494],
   [0, 15970384710343353454, 13425532133652219388, 10671474339416091073, 10450314934811196248,
    15460752325042540976, 5121032656801398620, 9131085915422529423, 9324724862382342420,
    12082299153922883730, 13467196529075308476, 12953692345056074332],
   [0, 1771793567194151671, 15142933960659549702, 9894807657031310686, 18336972140674804593,
    17912100809813178865, 4024626527209320900, 12902490561812826348, 3834016788156137369,
    7987120729395082643, 12082299153922883730, 9784845174587381689],
   [0, 4875919713445427824, 3133449992660201275, 9691837381058730497, 2449954487664193306,
    16600414332019026950, 1108871391624661503, 8890236093836083913, 2993890047669424007, 3834016788156137369,
    9324724862382342420, 2846421722960263397],
   [0, 2213105806320286928, 5327367790046332661, 11310199827456823997, 3399569060431971280,
    6337137814818265439, 13127685871131708087, 11273205376902267029, 8890236093836083913,
    12902490561812826348, 9131085915422529423, 12385413400535607570],
   [0, 7180296998383286286, 10918839242488969349, 5667098414808904655, 15247094655402919362,
    13707726577346141870, 1604918822243795410, 13127685871131708087, 1108871391624661503,
    4024626527209320900, 5121032656801398620, 14107235492756297941],
   [0, 12462594557878236493, 18129194926967624017, 1832945960931680527, 3490888157716349050,
    1163815498378147679, 13707726577346141870, 6337137814818265439, 16600414332019026950,
    17912100809813178865, 15460752325042540976, 724384779425926774],
   [0, 13219244304314749982, 772552672847918846, 18435572737192783193, 11457775409965235538,
    3490888157716349050, 15247094655402919362, 3399569060431971280, 2449954487664193306,
    18336972140674804593, 10450314934811196248, 1851112032239856745],
   [0, 13309286494356417697, 10342929927992513549, 2934662185573238230, 18435572737192783193,
    1832945960931680527, 5667098414808904655, 11310199827456823997, 9691837381058730497, 9894807657031310686,
    10671474339416091073, 17308358903886256474],
   [0, 5617579558730675683, 16857257440409655972, 10342929927992513549, 772552672847918846,
    18129194926967624017, 10918839242488969349, 5327367790046332661, 3133449992660201275,
    15142933960659549702, 13425532133652219388, 10346359869509089095],
   [0, 1796146545824101326, 5617579558730675683, 13309286494356417697, 13219244304314749982,
    12462594557878236493, 7180296998383286286, 2213105806320286928, 4875919713445427824, 1771793567194151671,
    15970384710343353454, 4493074297442824513]],
  [[1, 0, 0, 0, 0, 0, 0, 0, 0, 0, 0, 0],
   [0, 1797774746155284560, 10214188569899267201, 4862666606936078026, 18051536233394054445,
    17595786283522156388, 11220285329447783381, 1480555506342787859, 3382726709403274205,
    3427083048420847957, 5615098221108851003, 6932164040546350116],
   [0, 1165693073839244849, 14382673336826041356, 11538288901076743692, 2204053301276454077,
    10763494859583767313, 16523606611902202044, 8017819390928928641, 15288556357634072091,
    14850919993625666683, 15486675003489124973, 5615098221108851003],
   [0, 16771750419609082906, 11318583168885150342, 3452348388522578487, 8328299097651678836,
    16082584329435195717, 18145531975863023229, 3533590897516036864, 16104443829265709729,
    15271443681622882186, 14850919993625666683, 3427083048420847957],
   [0, 7853106183905475421, 17448738161705495834, 16418775309338446299, 4502618734177044401,
    7287304265227011824, 4900771177775696898, 11804812673205514189, 11034082484395737278,
    16104443829265709729, 15288556357634072091, 3382726709403274205],
   [0, 3881169132918113819, 4470280616691989023, 10401303349302217330, 18284513002644149803,
    11040780494251589017, 2575803699225690099, 5646999954865776653, 11804812673205514189,
    3533590897516036864, 8017819390928928641, 1480555506342787859],
   [0, 17774488942649890964, 6562433684160002631, 15635424577028690920, 2874144508656203885,
    7421837069192536604, 4381798777467197854, 2575803699225690099, 4900771177775696898, 18145531975863023229,
    16523606611902202044, 11220285329447783381],
   [0, 7558142918115220940, 343715590212443971, 13352600031586847108, 7618450587711372921,
    17988995491968366021, 7421837069192536604, 11040780494251589017, 7287304265227011824,
    16082584329435195717, 10763494859583767313, 17595786283522156388],
   [0, 7382506341830052497, 6754029988882032999, 15167966331785289446, 13163652727574666638,
    7618450587711372921, 2874144508656203885, 18284513002644149803, 4502618734177044401, 8328299097651678836,
    2204053301276454077, 18051536233394054445],
   [0, 17543988612873738543, 15814984132838176517, 12975388465184657494, 15167966331785289446,
    13352600031586847108, 15635424577028690920, 10401303349302217330, 16418775309338446299,
    3452348388522578487, 11538288901076743692, 4862666606936078026],
   [0, 13930225942144866988, 15989457109285969298, 15814984132838176517, 6754029988882032999,
    343715590212443971, 6562433684160002631, 4470280616691989023, 17448738161705495834, 11318583168885150342,
    14382673336826041356, 10214188569899267201],
   [0, 9188913176757823144, 13930225942144866988, 17543988612873738543, 7382506341830052497,
    7558142918115220940, 17774488942649890964, 3881169132918113819, 7853106183905475421,
    16771750419609082906, 1165693073839244849, 1797774746155284560]],
  [[1, 0, 0, 0, 0, 0, 0, 0, 0, 0, 0, 0],
   [0, 8133487010549233804, 8965959229543565459, 9871683825203720491, 7954340531401973998,
    4853096900229228799, 11460093151327912441, 6096448841605394625, 9396112986063998834, 1338455444636350375,
    2520903300486221345, 7062597508109685631],
   [0, 2544816034169480809, 13127473738092155569, 8446870507391983031, 8841741125324983269,
    15569266013544195445, 11096318684875893122, 16479538719487579388, 8913024132649272151,
    14257797811395898667, 16441738854196835826, 2520903300486221345],
   [0, 2219948359684374195, 1575996328066544657, 1366817928577779385, 12499741450474400679,
    13696163977688445153, 13099980241934478640, 15126431085252008294, 16454613122345064129,
    2511406734730204359, 14257797811395898667, 1338455444636350375],
   [0, 4458928282747572812, 14789660320101726582, 3393032487730069458, 7445133186297782969,
    3947165029981699763, 2697336740397924701, 17070958761877597595, 7963500476679946391,
    16454613122345064129, 8913024132649272151, 9396112986063998834],
   [0, 3565231665895948897, 6136263116653345638, 13690201498221254189, 16103561683959509032,
    969153015193323928, 193362269535720770, 16665222226259475465, 17070958761877597595, 15126431085252008294,
    16479538719487579388, 6096448841605394625],
   [0, 8483333552239082770, 14288214413696161199, 9372231886106700060, 15490428541431054988,
    17895347022570916295, 2389063924349592073, 193362269535720770, 2697336740397924701, 13099980241934478640,
    11096318684875893122, 11460093151327912441],
   [0, 10824897207020028782, 14195428756829077564, 4417241622476888762, 10362972791623293710,
    7439263965537726426, 17895347022570916295, 969153015193323928, 3947165029981699763, 13696163977688445153,
    15569266013544195445, 4853096900229228799],
   [0, 14154687243757006967, 9944559137738989076, 10246720136337372221, 15893360100688840239,
    10362972791623293710, 15490428541431054988, 16103561683959509032, 7445133186297782969,
    12499741450474400679, 8841741125324983269, 7954340531401973998],
   [0, 5970909799612746508, 13650690188039175975, 12745713762069559339, 10246720136337372221,
    4417241622476888762, 9372231886106700060, 13690201498221254189, 3393032487730069458, 1366817928577779385,
    8446870507391983031, 9871683825203720491],
   [0, 2331486119911416273, 5905701278392683634, 13650690188039175975, 9944559137738989076,
    14195428756829077564, 14288214413696161199, 6136263116653345638, 14789660320101726582,
    1575996328066544657, 13127473738092155569, 8965959229543565459],
   [0, 2693830222793283003, 2331486119911416273, 5970909799612746508, 14154687243757006967,
    10824897207020028782, 8483333552239082770, 3565231665895948897, 4458928282747572812, 2219948359684374195,
    2544816034169480809, 8133487010549233804]],
  [[1, 0, 0, 0, 0, 0, 0, 0, 0, 0, 0, 0],
   [0, 12386984797361594431, 14961029001688337985, 8249272109490215512, 11527283393389495033,
    8426192565354749460, 17939976108779938076, 4035280004738538805, 6225538442450707065,
    11722938041592868556, 12789075628534401566, 1006595177318161025],
   [0, 15306153302328396179, 4996239112225163764, 18418770943591146173, 5510183104559144490,
    8291051993947967557, 2236679522986472229, 2347107787747856213, 14988529009589723236,
    10544344247899279882, 12926153579654198665, 12789075628534401566],
   [0, 1848971448326537300, 15314494880871968836, 11465031262211365939, 8453837262043961870,
    5267471668521817858, 2697877752368307506, 8975904778082095760, 1467987246459954565, 5890675618233252923,
    10544344247899279882, 11722938041592868556],
   [0, 18354054261148871356, 9167380556753339156, 15914448012007792834, 2053641635091290111,
    12470527835904683294, 11078309562789277458, 14361139281628625031, 17630884011870253606,
    1467987246459954565, 14988529009589723236, 6225538442450707065],
   [0, 8235418299713842505, 10265231489532129583, 7874018954908011045, 1101048418515942273,
    2665757041301163050, 10666520656190851807, 5615616407612342327, 14361139281628625031,
    8975904778082095760, 2347107787747856213, 4035280004738538805],
   [0, 18215394283571971965, 6471723447443264938, 15093821313687020026, 2671819052088592098,
    9481334455761805954, 15247055405039249855, 10666520656190851807, 11078309562789277458,
    2697877752368307506, 2236679522986472229, 17939976108779938076],
   [0, 10653119307005429669, 788138351500494406, 9558171554409131123, 14493609472402689173,
    2447815649454523478, 9481334455761805954, 2665757041301163050, 12470527835904683294, 5267471668521817858,
    8291051993947967557, 8426192565354749460],
   [0, 5629532963608358296, 6411048414461885653, 16717509194434850458, 6231634575797810496,
    14493609472402689173, 2671819052088592098, 1101048418515942273, 2053641635091290111, 8453837262043961870,
    5510183104559144490, 11527283393389495033],
   [0, 3588053253866835728, 557286164625925057, 11934061314995698304, 16717509194434850458,
    9558171554409131123, 15093821313687020026, 7874018954908011045, 15914448012007792834,
    11465031262211365939, 18418770943591146173, 8249272109490215512],
   [0, 8443627446235615806, 14240096155233195538, 557286164625925057, 6411048414461885653,
    788138351500494406, 6471723447443264938, 10265231489532129583, 9167380556753339156, 15314494880871968836,
    4996239112225163764, 14961029001688337985],
   [0, 15033250534879076532, 8443627446235615806, 3588053253866835728, 5629532963608358296,
    10653119307005429669, 18215394283571971965, 8235418299713842505, 18354054261148871356,
    1848971448326537300, 15306153302328396179, 12386984797361594431]],
  [[1, 0, 0, 0, 0, 0, 0, 0, 0, 0, 0, 0],
   [0, 15605659224466259701, 4000418013331060773, 4125640012234764859, 5237333647558189863,
    5990809043874112845, 10640751185010135670, 246952906078209861, 7534777945255405308, 15236530132224433566,
    12872435426121471961, 13787951403803605350],
   [0, 9616372929076881052, 4870812039892940506, 15607171411161178402, 11147730099573106802,
    8920654667434157168, 884276842287381896, 11489817699880396568, 1612760805873409040, 2639581681947495913,
    13970611754270689434, 12872435426121471961],
   [0, 1363014642190277683, 9256373584208369030, 2539926723149230835, 17209523142571835257,
    17266122066734070601, 10325118491849109288, 8933046839793317334, 497039892412236960, 3223772394711513187,
    2639581681947495913, 15236530132224433566],
   [0, 4246099007579085727, 9233214937356442066, 11924979525855834288, 11972750497831784009,
    2646146220086154962, 17312454640380650874, 5442592457134526312, 4334106954119051909, 497039892412236960,
    1612760805873409040, 7534777945255405308],
   [0, 10644264999108750230, 370052694029968791, 6605617193309234283, 6443143500047459894,
    8425923818491525914, 17901023177249780105, 13621738839793685885, 5442592457134526312,
    8933046839793317334, 11489817699880396568, 246952906078209861],
   [0, 10491574317279897394, 10874886464194185770, 3376662029438788375, 2679483384492610988,
    14048228934918716421, 5049827981334554574, 17901023177249780105, 17312454640380650874,
    10325118491849109288, 884276842287381896, 10640751185010135670],
   [0, 426078330520825478, 17963675427971515879, 17659913257657782499, 5262270216168061266,
    14778458153913926806, 14048228934918716421, 8425923818491525914, 2646146220086154962,
    17266122066734070601, 8920654667434157168, 5990809043874112845],
   [0, 5815327685549649115, 1124604945209583590, 13469761188196069155, 6145516909618998237,
    5262270216168061266, 2679483384492610988, 6443143500047459894, 11972750497831784009,
    17209523142571835257, 11147730099573106802, 5237333647558189863],
   [0, 14742519426563563674, 4167437204829745620, 12745689324745883930, 13469761188196069155,
    17659913257657782499, 3376662029438788375, 6605617193309234283, 11924979525855834288,
    2539926723149230835, 15607171411161178402, 4125640012234764859],
   [0, 3348945707758697830, 8812801784183931161, 4167437204829745620, 1124604945209583590,
    17963675427971515879, 10874886464194185770, 370052694029968791, 9233214937356442066, 9256373584208369030,
    4870812039892940506, 4000418013331060773],
   [0, 18362047950544994575, 3348945707758697830, 14742519426563563674, 5815327685549649115,
    426078330520825478, 10491574317279897394, 10644264999108750230, 4246099007579085727, 1363014642190277683,
    9616372929076881052, 15605659224466259701]],
  [[1, 0, 0, 0, 0, 0, 0, 0, 0, 0, 0, 0],
   [0, 14788009950460194795, 15346014113076613678, 4667970002539024950, 2349645762976945278,
    8214720073247934171, 10604860832337123806, 12960581590639901543, 17478846790386726273,
    4952791028424591794, 7094663153996263885, 5168156371671849803],
   [0, 17633986847812015007, 2070396039673408304, 6426860276616338924, 15851152354949930050,
    4798170030872023405, 10837720270460719393, 17458341755216949457, 11538504195353508597,
    11703712300301122452, 17380970230212957682, 7094663153996263885],
   [0, 2723014141493716781, 8077712883937164960, 8556838456605092614, 13610831615635334560,
    2589524945434133762, 15186706823493242341, 7350383531293173886, 14855630786642312649,
    15568258449519769985, 11703712300301122452, 4952791028424591794],
   [0, 8639137588672859859, 3645314940215363885, 8555695790160905462, 10614526473297607179,
    2724947473094434452, 17617167002157212973, 415845105991658157, 166385259891113910, 14855630786642312649,
    11538504195353508597, 17478846790386726273],
   [0, 16284064190114963129, 3521553716395317689, 13286267681647092854, 16513363746261032389,
    11051742060474449808, 7744739839391493133, 4185103282329143607, 415845105991658157, 7350383531293173886,
    17458341755216949457, 12960581590639901543],
   [0, 14392613311005802150, 2324591557450222957, 15458634792801450119, 1636686743452686272,
    7261002750304984785, 12100840973045904678, 7744739839391493133, 17617167002157212973,
    15186706823493242341, 10837720270460719393, 10604860832337123806],
   [0, 10012221126413559647, 11140328067153467962, 7225011356759426157, 9737077489504067072,
    11426277723577938587, 7261002750304984785, 11051742060474449808, 2724947473094434452,
    2589524945434133762, 4798170030872023405, 8214720073247934171],
   [0, 12785652731380026282, 18117863435263947288, 4725964616237801197, 10497192056815603814,
    9737077489504067072, 1636686743452686272, 16513363746261032389, 10614526473297607179,
    13610831615635334560, 15851152354949930050, 2349645762976945278],
   [0, 13156078388777718730, 11735057157090471613, 1054683605821380106, 4725964616237801197,
    7225011356759426157, 15458634792801450119, 13286267681647092854, 8555695790160905462,
    8556838456605092614, 6426860276616338924, 4667970002539024950],
   [0, 7533806203744380263, 8249696060065134809, 11735057157090471613, 18117863435263947288,
    11140328067153467962, 2324591557450222957, 3521553716395317689, 3645314940215363885, 8077712883937164960,
    2070396039673408304, 15346014113076613678],
   [0, 18169574776552610659, 7533806203744380263, 13156078388777718730, 12785652731380026282,
    10012221126413559647, 14392613311005802150, 16284064190114963129, 8639137588672859859,
    2723014141493716781, 17633986847812015007, 14788009950460194795]],
  [[1, 0, 0, 0, 0, 0, 0, 0, 0, 0, 0, 0],
   [0, 14131583845701911025, 8863151885925876491, 5157050650416403305, 9195876583647903018,
    8397969431808573354, 749866136440027261, 596300900791567406, 5330210765869255613, 14610309132123775822,
    3874139093370660776, 13925938069703171298],
   [0, 7132103907324754660, 6950840647204755549, 9908488800935562191, 15725813658957478162,
    2120788173224242824, 15479638659535029581, 5321904225420447665, 7560674028159277733,
    14337105466196308706, 10900545894384429528, 3874139093370660776],
   [0, 11602774016984074439, 15730553453673588012, 12551633008146429384, 14849702510682982439,
    10152966434697912045, 7686742849795605573, 15471618183416724253, 11578776725373485676,
    13887192165301892654, 14337105466196308706, 14610309132123775822],
   [0, 10268097745285949563, 8878728965651803013, 1936735058433109496, 956961414877105176,
    16822486696925629403, 17931230328043201436, 2429049903154736636, 16668599851949119786,
    11578776725373485676, 7560674028159277733, 5330210765869255613],
   [0, 9054086591942162075, 2049841778340930741, 2477636354337062130, 11865296757347714772,
    1108178325390090476, 18084381632237766881, 16713311170726308665, 2429049903154736636,
    15471618183416724253, 5321904225420447665, 596300900791567406],
   [0, 17867014853637126428, 17947950103020121746, 14424650367947098045, 1712316257887010482,
    4330893779626076500, 3622272540308065115, 18084381632237766881, 17931230328043201436,
    7686742849795605573, 15479638659535029581, 749866136440027261],
   [0, 12923458914563565878, 1594062762317058109, 8362238805109675096, 13798438771768643017,
    7593497318175741800, 4330893779626076500, 1108178325390090476, 16822486696925629403,
    10152966434697912045, 2120788173224242824, 8397969431808573354],
   [0, 8320722271251285522, 16249258452449605988, 2077777253156963255, 6861444764497837306,
    13798438771768643017, 1712316257887010482, 11865296757347714772, 956961414877105176,
    14849702510682982439, 15725813658957478162, 9195876583647903018],
   [0, 16391311377880483994, 14835149623802733507, 4095028192160810060, 2077777253156963255,
    8362238805109675096, 14424650367947098045, 2477636354337062130, 1936735058433109496,
    12551633008146429384, 9908488800935562191, 5157050650416403305],
   [0, 17846540521519332371, 12348820663297339755, 14835149623802733507, 16249258452449605988,
    1594062762317058109, 17947950103020121746, 2049841778340930741, 8878728965651803013,
    15730553453673588012, 6950840647204755549, 8863151885925876491],
   [0, 12555930752547772664, 17846540521519332371, 16391311377880483994, 8320722271251285522,
    12923458914563565878, 17867014853637126428, 9054086591942162075, 10268097745285949563,
    11602774016984074439, 7132103907324754660, 14131583845701911025]],
  [[1, 0, 0, 0, 0, 0, 0, 0, 0, 0, 0, 0],
   [0, 16140620840388126765, 8797718169613526244, 15843809132249375231, 11382186289047087950,
    13023342589776586429, 15360624772552530746, 18356460590979035555, 9600929215564489911,
    1227259949329656953, 7700499155442625667, 10961526890110016857],
   [0, 1763144155218737083, 9107785447432634224, 1408833770551630524, 17507503778780931635,
    17575930600648357780, 4867344022091250813, 11870795745460135547, 18021687561203445833,
    12693014132602848260, 11997116611751311993, 7700499155442625667],
   [0, 6524022087171292426, 7726926443225870621, 5046271019361754050, 4916080683150625213,
    3520890583556306208, 1131126621198209472, 3857070888655832746, 8581739011775134954, 3861217268121293769,
    12693014132602848260, 1227259949329656953],
   [0, 5713787501125452450, 3815479712669727517, 15191855505455033778, 18088145292918380603,
    4036316731823624584, 9140083712673420622, 674452567616992529, 2076753721211762449, 8581739011775134954,
    18021687561203445833, 9600929215564489911],
   [0, 12810787897971851463, 1980198459087228066, 13642912285029124470, 15538535918110892523,
    5092586808012758034, 12064390082230508102, 600725020334092421, 674452567616992529, 3857070888655832746,
    11870795745460135547, 18356460590979035555],
   [0, 2682730759287515014, 6111620324460698605, 12847694505566614728, 15307298355307299949,
    7951182067787167601, 5082888755287983125, 12064390082230508102, 9140083712673420622, 1131126621198209472,
    4867344022091250813, 15360624772552530746],
   [0, 5881482710693349911, 9136336711027057297, 6188657000670367605, 1797197114533590709,
    7247761303660349310, 7951182067787167601, 5092586808012758034, 4036316731823624584, 3520890583556306208,
    17575930600648357780, 13023342589776586429],
   [0, 8171194746349495370, 10491096672240945934, 3912994291788319063, 3406651769721889427,
    1797197114533590709, 15307298355307299949, 15538535918110892523, 18088145292918380603,
    4916080683150625213, 17507503778780931635, 11382186289047087950],
   [0, 14400758540397526055, 9463562560930152590, 16679429759314674619, 3912994291788319063,
    6188657000670367605, 12847694505566614728, 13642912285029124470, 15191855505455033778,
    5046271019361754050, 1408833770551630524, 15843809132249375231],
   [0, 8270837546371856341, 15277710491319035920, 9463562560930152590, 10491096672240945934,
    9136336711027057297, 6111620324460698605, 1980198459087228066, 3815479712669727517, 7726926443225870621,
    9107785447432634224, 8797718169613526244],
   [0, 8746146647634581840, 8270837546371856341, 14400758540397526055, 8171194746349495370,
    5881482710693349911, 2682730759287515014, 12810787897971851463, 5713787501125452450, 6524022087171292426,
    1763144155218737083, 16140620840388126765]],
  [[1, 0, 0, 0, 0, 0, 0, 0, 0, 0, 0, 0],
   [0, 6874660097098112962, 17480599195283091496, 9360470459535657428, 1129368611864808136,
    12774248631862647918, 6217739934484664492, 15465822251124097764, 487011108049220409, 7419816408601137476,
    18415603717049511667, 15489539360613358982],
   [0, 9791626883321781618, 5070693478592545671, 8163619153332410930, 12658303188963949563,
    10446479506449335131, 6352721907494227506, 7477704039719736826, 15860053143382676386,
    3715949641489800293, 9149319337134890214, 18415603717049511667],
   [0, 2262879714601032868, 17033976493304114978, 15907975569278647232, 179254437667958847,
    6994567790713307569, 13021410116561015613, 15110361504458069317, 16023515368829616172,
    6040250269537876542, 3715949641489800293, 7419816408601137476],
   [0, 13422199292930179152, 1482644181421145322, 8904110852871958508, 14868428941150240717,
    10574983900623980402, 4399025201825334353, 5301517585556671312, 14258592746673950771,
    16023515368829616172, 15860053143382676386, 487011108049220409],
   [0, 14537538551940754636, 4301405566957442215, 14246419026390560602, 11143406573898272194,
    2912856446840440414, 1277169671785723121, 14044456378527938148, 5301517585556671312,
    15110361504458069317, 7477704039719736826, 15465822251124097764],
   [0, 506943524844867196, 17295456453386624282, 14898363389769696897, 9878554759235906471,
    2562592590219969835, 7223628998104483465, 1277169671785723121, 4399025201825334353, 13021410116561015613,
    6352721907494227506, 6217739934484664492],
   [0, 14957977642888578851, 3418467626592781491, 6519365854208330675, 693330196880674620,
    17507019180753287366, 2562592590219969835, 2912856446840440414, 10574983900623980402,
    6994567790713307569, 10446479506449335131, 12774248631862647918],
   [0, 15737229278501044858, 8077619974642843580, 9766252433505465216, 3918368398138339211,
    693330196880674620, 9878554759235906471, 11143406573898272194, 14868428941150240717, 179254437667958847,
    12658303188963949563, 1129368611864808136],
   [0, 6236625190471851394, 1331162761420000762, 12810755804556562437, 9766252433505465216,
    6519365854208330675, 14898363389769696897, 14246419026390560602, 8904110852871958508,
    15907975569278647232, 8163619153332410930, 9360470459535657428],
   [0, 1062943138297464724, 7690361825464131330, 1331162761420000762, 8077619974642843580,
    3418467626592781491, 17295456453386624282, 4301405566957442215, 1482644181421145322,
    17033976493304114978, 5070693478592545671, 17480599195283091496],
   [0, 18287149686449894132, 1062943138297464724, 6236625190471851394, 15737229278501044858,
    14957977642888578851, 506943524844867196, 14537538551940754636, 13422199292930179152,
    2262879714601032868, 9791626883321781618, 6874660097098112962]],
  [[1, 0, 0, 0, 0, 0, 0, 0, 0, 0, 0, 0],
   [0, 9600728207161871144, 11082495888823767432, 10100091943452333448, 17201173294128120691,
    15856673314298055356, 4301668742895959939, 4687139233975177796, 10047258512865652211,
    5953245633030853782, 16322602305737220541, 16735396860163859560],
   [0, 9426622158034522351, 9335809497942145084, 15555691052957368160, 5974844593603844884,
    17336911031758546954, 1954506554803412045, 10625915146964638701, 13556991595077924805,
    8657132526479866126, 16031682308813496832, 16322602305737220541],
   [0, 4509565598650396036, 6628655230828598087, 6767047713753628230, 5884177512970917927,
    2967188487866704747, 8009956462530068479, 4408367831807651804, 17438096387659357143, 3055169860208750824,
    8657132526479866126, 5953245633030853782],
   [0, 524410109660786684, 5607885501951082744, 6091537855652895198, 2386567835897906319,
    1428044038646695039, 7909795718272031851, 18117629073654842393, 12692519385313813267,
    17438096387659357143, 13556991595077924805, 10047258512865652211],
   [0, 5217379766584953327, 9316096784829701699, 7976196888215665932, 15672501131816111553,
    14049862109370821594, 11292087528080178202, 6542205904004800401, 18117629073654842393,
    4408367831807651804, 10625915146964638701, 4687139233975177796],
   [0, 7504354468046209020, 2428262429921284017, 11374107100829404635, 15129795214494809863,
    3212768036401094041, 18262775442830078023, 11292087528080178202, 7909795718272031851,
    8009956462530068479, 1954506554803412045, 4301668742895959939],
   [0, 12656151614664114493, 4269969079428306837, 8208089744202104285, 16909704747187863244,
    11329833101177694477, 3212768036401094041, 14049862109370821594, 1428044038646695039,
    2967188487866704747, 17336911031758546954, 15856673314298055356],
   [0, 17531412005462185582, 14505657170544797595, 8079843368401446577, 14291220448452157957,
    16909704747187863244, 15129795214494809863, 15672501131816111553, 2386567835897906319,
    5884177512970917927, 5974844593603844884, 17201173294128120691],
   [0, 8331424141617811712, 13374636631293568227, 10505906484587923688, 8079843368401446577,
    8208089744202104285, 11374107100829404635, 7976196888215665932, 6091537855652895198, 6767047713753628230,
    15555691052957368160, 10100091943452333448],
   [0, 6267043999359239523, 3884661414878737153, 13374636631293568227, 14505657170544797595,
    4269969079428306837, 2428262429921284017, 9316096784829701699, 5607885501951082744, 6628655230828598087,
    9335809497942145084, 11082495888823767432],
   [0, 6739420069344797361, 6267043999359239523, 8331424141617811712, 17531412005462185582,
    12656151614664114493, 7504354468046209020, 5217379766584953327, 524410109660786684, 4509565598650396036,
    9426622158034522351, 9600728207161871144]],
  [[1, 0, 0, 0, 0, 0, 0, 0, 0, 0, 0, 0],
   [0, 15910675237590107918, 16721955493293769103, 16539819786163801718, 7339413174450368469,
    7429808326109330742, 352107985704792205, 17464448955280367166, 14590864981671542751,
    16679895656147277190, 15722606281975370935, 14048283238122919222],
   [0, 17422584001905748223, 1280998556223737215, 18001291969609941623, 8017625539944400022,
    9663170580916663991, 1622808036661066366, 398545139075176974, 17777525894234243824, 18129129315784465959,
    362224821230372407, 15722606281975370935],
   [0, 116808209428654667, 697068244143268396, 759472588077859157, 10123730239451537325, 9973533480890579462,
    3048162864124651499, 1691474342478626359, 16985068272790240033, 901012400054230137, 18129129315784465959,
    16679895656147277190],
   [0, 16284889524407138142, 240301272824993166, 16857682119129948391, 6823018091209934210,
    8569319415891324447, 466203019718946285, 17698577365637774412, 16748229812560741585,
    16985068272790240033, 17777525894234243824, 14590864981671542751],
   [0, 907430206129505760, 1418789266342528593, 1549392393781998117, 10953434538372062161,
    10731946259268253054, 3847403790493583664, 2488063363080472406, 17698577365637774412,
    1691474342478626359, 398545139075176974, 17464448955280367166],
   [0, 2256152869214663102, 2647803329311787663, 2905056973295004165, 12368457200316604969,
    12021896285274814030, 5217874129313521710, 3847403790493583664, 466203019718946285, 3048162864124651499,
    1622808036661066366, 352107985704792205],
   [0, 9229956399409098446, 10629333168975867727, 9838216434405734518, 329458154934230741,
    1032063490513312054, 12021896285274814030, 10731946259268253054, 8569319415891324447,
    9973533480890579462, 9663170580916663991, 7429808326109330742],
   [0, 9307663971279585129, 9079415492770349482, 9975714208288560949, 1320854292480264964,
    329458154934230741, 12368457200316604969, 10953434538372062161, 6823018091209934210,
    10123730239451537325, 8017625539944400022, 7339413174450368469],
   [0, 18422484338446061574, 568264845283463174, 618004611322749429, 9975714208288560949,
    9838216434405734518, 2905056973295004165, 1549392393781998117, 16857682119129948391, 759472588077859157,
    18001291969609941623, 16539819786163801718],
   [0, 18435189090675993120, 2201856135917201648, 568264845283463174, 9079415492770349482,
    10629333168975867727, 2647803329311787663, 1418789266342528593, 240301272824993166, 697068244143268396,
    1280998556223737215, 16721955493293769103],
   [0, 17785632003071796559, 18435189090675993120, 18422484338446061574, 9307663971279585129,
    9229956399409098446, 2256152869214663102, 907430206129505760, 16284889524407138142, 116808209428654667,
    17422584001905748223, 15910675237590107918]],
  [[1, 0, 0, 0, 0, 0, 0, 0, 0, 0, 0, 0],
   [0, 855388286844133784, 780135487924137112, 858073271345496064, 897552666082278112, 819228367254885312,
    867721234912816024, 862020979413085128, 771046160825451752, 858668621870824464, 775827854023467456,
    847486233201659584],
   [0, 783105880577559304, 714186920166181512, 785608843281782656, 821702495714929312, 749962119261010368,
    794432627295434632, 789181088674874392, 705858751093306872, 786154949012851504, 710287422290728000,
    775827854023467456],
   [0, 866761481543576214, 790450759041808374, 869452432537464288, 909471283425800120, 830042472992446352,
    879223385245974966, 873478951480496386, 781227391378030954, 870060167165051012, 786154949012851504,
    858668621870824464],
   [0, 778241183273945543, 709772342425565687, 780685119640631024, 816602619753717004, 745337903119061800,
    789462799580940887, 784276489869346677, 701500770822571641, 781227391378030954, 705858751093306872,
    771046160825451752],
   [0, 870090837100594507, 793527277821290811, 872874683071640752, 912976618768039516, 833281588052019720,
    882679455638189083, 876841136071623553, 784276489869346677, 873478951480496386, 789181088674874392,
    862020979413085128],
   [0, 875889964048302441, 798782312851892281, 878608877955631120, 919051735506223796, 838792372538601816,
    888484278315383257, 882679455638189083, 789462799580940887, 879223385245974966, 794432627295434632,
    867721234912816024],
   [0, 826867812333406808, 754125201998494296, 829467181394175744, 867627773130648544, 791915165988213440,
    838792372538601816, 833281588052019720, 745337903119061800, 830042472992446352, 749962119261010368,
    819228367254885312],
   [0, 905949175702820596, 826233747917591092, 908841263459388992, 950603772971797264, 867627773130648544,
    919051735506223796, 912976618768039516, 816602619753717004, 909471283425800120, 821702495714929312,
    897552666082278112],
   [0, 866159592005845392, 789903475451484688, 868842926964117376, 908841263459388992, 829467181394175744,
    878608877955631120, 872874683071640752, 780685119640631024, 869452432537464288, 785608843281782656,
    858073271345496064],
   [0, 787420507311051209, 718141553650581145, 789903475451484688, 826233747917591092, 754125201998494296,
    798782312851892281, 793527277821290811, 709772342425565687, 790450759041808374, 714186920166181512,
    780135487924137112],
   [0, 863392130564736121, 787420507311051209, 866159592005845392, 905949175702820596, 826867812333406808,
    875889964048302441, 870090837100594507, 778241183273945543, 866761481543576214, 783105880577559304,
    855388286844133784]],
  [[1, 0, 0, 0, 0, 0, 0, 0, 0, 0, 0, 0],
   [0, 3651340507133272, 3330141952195480, 3663689173392832, 3831328452005472, 3496981847579136,
    3704773626217624, 3679670360080904, 3291361736500712, 3666180382665552, 3311898509722688, 3617619164076160],
   [0, 3343505365045128, 3048860166221192, 3353226522855424, 3508177964943520, 3201498682054464,
    3390967164621448, 3369392911283096, 3013199196623608, 3355618449736880, 3032524875678272, 3311898509722688],
   [0, 3699882086611606, 3374692059789750, 3711392404044064, 3882321341427000, 3543948149603408,
    3753151902366070, 3728571836348930, 3335465282620330, 3713906877962436, 3355618449736880, 3666180382665552],
   [0, 3322057331483687, 3029825214537815, 3333165503180016, 3485831745579660, 3181608159054888,
    3370555672456887, 3347841576462997, 2994545516877337, 3335465282620330, 3013199196623608, 3291361736500712],
   [0, 3714838850834283, 3387460909380635, 3725925432889840, 3897815424237916, 3557059036812744,
    3767794840695547, 3743623197847265, 3347841576462997, 3728571836348930, 3369392911283096, 3679670360080904],
   [0, 3738802330068233, 3410216760606169, 3750584591129616, 3923186262351156, 3581228976328280,
    3792803188927353, 3767794840695547, 3370555672456887, 3753151902366070, 3390967164621448, 3704773626217624],
   [0, 3529598737558680, 3219136667447640, 3541488999119168, 3703626167550048, 3380387176225920,
    3581228976328280, 3557059036812744, 3181608159054888, 3543948149603408, 3201498682054464, 3496981847579136],
   [0, 3867849146000884, 3527055955369140, 3879596337455040, 4058369869413136, 3703626167550048,
    3923186262351156, 3897815424237916, 3485831745579660, 3882321341427000, 3508177964943520, 3831328452005472],
   [0, 3697230980596304, 3372370086196240, 3708809673169728, 3879596337455040, 3541488999119168,
    3750584591129616, 3725925432889840, 3333165503180016, 3711392404044064, 3353226522855424, 3663689173392832],
   [0, 3361359980212585, 3065579247682105, 3372370086196240, 3527055955369140, 3219136667447640,
    3410216760606169, 3387460909380635, 3029825214537815, 3374692059789750, 3048860166221192, 3330141952195480],
   [0, 3686334752218841, 3361359980212585, 3697230980596304, 3867849146000884, 3529598737558680,
    3738802330068233, 3714838850834283, 3322057331483687, 3699882086611606, 3343505365045128, 3651340507133272]],
  [[1, 0, 0, 0, 0, 0, 0, 0, 0, 0, 0, 0],
   [0, 15597417394872, 14214183813400, 15634637162528, 16362642757536, 14924295645472, 15809577028760,
    15716753194920, 14046856429672, 15645689047664, 14146782744576, 15437897484640],
   [0, 14265845910728, 13019402183304, 14314457317312, 14971663532192, 13674685334400, 14476150421128,
    14376695139416, 12869846984184, 14324100721648, 12937169916992, 14146782744576],
   [0, 15789364582774, 14402802566006, 15854642805056, 16568699415544, 15124827185456, 16031064171830,
    15913308443938, 14234969071082, 15864645901988, 14324100721648, 15645689047664],
   [0, 14189171507591, 12932800297015, 14224802389488, 14885869456396, 13578487641000, 14384944801815,
    14298328948917, 12780153506873, 14234969071082, 12869846984184, 14046856429672],
   [0, 15853223212907, 14465589128187, 15902273687440, 16636793726492, 15192640887336, 16082128442587,
    15977552781665, 14298328948917, 15913308443938, 14376695139416, 15716753194920],
   [0, 15957886075305, 14554211450489, 16020588402192, 16744909148852, 15282607438936, 16198819987737,
    16082128442587, 14384944801815, 16031064171830, 14476150421128, 15809577028760],
   [0, 15076334064952, 13741046974936, 15112010186464, 15817459603232, 14426689138016, 15282607438936,
    15192640887336, 13578487641000, 15124827185456, 13674685334400, 14924295645472],
   [0, 16508488669492, 15060949146420, 16557529835264, 17323892566800, 15817459603232, 16744909148852,
    16636793726492, 14885869456396, 16568699415544, 14971663532192, 16362642757536],
   [0, 15779595974064, 14392081249040, 15843526156704, 16557529835264, 15112010186464, 16020588402192,
    15902273687440, 14224802389488, 15854642805056, 14314457317312, 15634637162528],
   [0, 14354104253961, 13086906825817, 14392081249040, 15060949146420, 13741046974936, 14554211450489,
    14465589128187, 12932800297015, 14402802566006, 13019402183304, 14214183813400],
   [0, 15732292914777, 14354104253961, 15779595974064, 16508488669492, 15076334064952, 15957886075305,
    15853223212907, 14189171507591, 15789364582774, 14265845910728, 15597417394872]],
  [[1, 0, 0, 0, 0, 0, 0, 0, 0, 0, 0, 0],
   [0, 66493856232, 60767878680, 66678671056, 69794040064, 63882426352, 67433254936, 67023288056,
    60087158120, 66688999040, 60268394528, 66069129360],
   [0, 60887888488, 55503741512, 61258586208, 63881924704, 58242811232, 61925818248, 61374492088,
    54846643256, 61291916496, 55271419264, 60268394528],
   [0, 67565519238, 61459187510, 67569856848, 70862101656, 64495017248, 68323507830, 68098036626,
    60702284330, 67652353236, 61291916496, 66688999040],
   [0, 60514987367, 55270709015, 60668234480, 63519145292, 58097050280, 61354989815, 60964242773,
    54659950937, 60702284330, 54846643256, 60087158120],
   [0, 67608101659, 61697834843, 68024518560, 70965753532, 64774613720, 68791288251, 68159488945,
    60964242773, 68098036626, 61374492088, 67023288056],
   [0, 68268996425, 62126609305, 68271024016, 71594032948, 65198056152, 69053794489, 68791288251,
    61354989815, 68323507830, 61925818248, 67433254936],
   [0, 64287425032, 58737012952, 64443715632, 67471015872, 61710932112, 65198056152, 64774613720,
    58097050280, 64495017248, 58242811232, 63882426352],
   [0, 70390517652, 64266219508, 70814324704, 73903604816, 67471015872, 71594032948, 70965753532,
    63519145292, 70862101656, 63881924704, 69794040064],
   [0, 67556674592, 61408962064, 67509861328, 70814324704, 64443715632, 68271024016, 68024518560,
    60668234480, 67569856848, 61258586208, 66678671056],
   [0, 61201538601, 55923951993, 61408962064, 64266219508, 58737012952, 62126609305, 61697834843,
    55270709015, 61459187510, 55503741512, 60767878680],
   [0, 67099354793, 61201538601, 67556674592, 70390517652, 64287425032, 68268996425, 67608101659,
    60514987367, 67565519238, 60887888488, 66493856232]],
  [[1, 0, 0, 0, 0, 0, 0, 0, 0, 0, 0, 0],
   [0, 282235216, 258285752, 287754760, 296642752, 271739096, 290242168, 285243280, 255387080, 288070216,
    256952416, 280233128],
   [0, 262512200, 237074008, 258744368, 274793680, 248706720, 262157000, 263724888, 233727656, 259401088,
    237865872, 256952416],
   [0, 286610446, 264109942, 286776120, 301535656, 277918552, 290923062, 289640266, 261097450, 287370636,
    259401088, 288070216],
   [0, 257114743, 235238039, 261741392, 269863068, 246789448, 263978423, 259853957, 232686297, 261097450,
    233727656, 255387080],
   [0, 291387251, 262947499, 288415880, 304933852, 275072448, 291813275, 293035161, 259853957, 289640266,
    263724888, 285243280],
   [0, 289457257, 266660569, 290692048, 304990452, 280934520, 294150169, 291813275, 263978423, 290923062,
    262157000, 290242168],
   [0, 273698848, 249385784, 278089464, 286678400, 261972648, 280934520, 275072448, 246789448, 277918552,
    248706720, 271739096],
   [0, 302363636, 274294564, 300774864, 317240928, 286678400, 304990452, 304933852, 269863068, 301535656,
    274793680, 296642752],
   [0, 286955896, 263433136, 287698696, 300774864, 278089464, 290692048, 288415880, 261741392, 286776120,
    258744368, 287754760],
   [0, 260725657, 238321913, 263433136, 274294564, 249385784, 266660569, 262947499, 235238039, 264109942,
    237074008, 258285752],
   [0, 289193489, 260725657, 286955896, 302363636, 273698848, 289457257, 291387251, 257114743, 286610446,
    262512200, 282235216]],
  [[1, 0, 0, 0, 0, 0, 0, 0, 0, 0, 0, 0],
   [0, 1245100, 1098072, 1190716, 1300784, 1133572, 1206472, 1279668, 1065320, 1209572, 1138800, 1175868],
   [0, 1078368, 1034088, 1115568, 1149856, 1093360, 1118088, 1092896, 1040696, 1097728, 966368, 1138800],
   [0, 1205802, 1101998, 1269500, 1268360, 1156924, 1283798, 1207246, 1100850, 1297432, 1097728, 1209572],
   [0, 1134223, 997679, 1083496, 1182252, 1052008, 1106983, 1138253, 964737, 1100850, 1040696, 1065320],
   [0, 1229703, 1139523, 1217028, 1273780, 1206844, 1246827, 1220837, 1138253, 1207246, 1092896, 1279668],
   [0, 1215705, 1128169, 1287344, 1286388, 1160104, 1302425, 1246827, 1106983, 1283798, 1118088, 1206472],
   [0, 1229284, 1046872, 1170628, 1251568, 1103164, 1160104, 1206844, 1052008, 1156924, 1093360, 1133572],
   [0, 1269180, 1199540, 1256688, 1367024, 1251568, 1286388, 1273780, 1182252, 1268360, 1149856, 1300784],
   [0, 1204572, 1096600, 1299092, 1256688, 1170628, 1287344, 1217028, 1083496, 1269500, 1115568, 1190716],
   [0, 1137505, 1024929, 1096600, 1199540, 1046872, 1128169, 1139523, 997679, 1101998, 1034088, 1098072],
   [0, 1202205, 1137505, 1204572, 1269180, 1229284, 1215705, 1229703, 1134223, 1205802, 1078368, 1245100]],
  [[1, 0, 0, 0, 0, 0, 0, 0, 0, 0, 0, 0],
   [0, 5006, 5012, 4266, 5200, 5662, 4872, 4938, 5196, 5198, 4056, 6146],
   [0, 4694, 3912, 5288, 4518, 4288, 5780, 4690, 3872, 5364, 4402, 4056],
   [0, 6276, 4466, 5018, 5796, 4082, 5006, 5988, 4430, 4874, 5364, 5198],
   [0, 4151, 4947, 4580, 5228, 4740, 4079, 4733, 4701, 4430, 3872, 5196],
   [0, 5363, 4203, 6338, 5178, 4942, 5663, 4417, 4733, 5988, 4690, 4938],
   [0, 5781, 5025, 4528, 6520, 4840, 5137, 5663, 4079, 5006, 5780, 4872],
   [0, 4778, 4828, 5110, 4680, 5762, 4840, 4942, 4740, 4082, 4288, 5662],
   [0, 5102, 5116, 5944, 5554, 4680, 6520, 5178, 5228, 5796, 4518, 5200],
   [0, 5982, 4476, 4942, 5944, 5110, 4528, 6338, 4580, 5018, 5288, 4266],
   [0, 4625, 4541, 4476, 5116, 4828, 5025, 4203, 4947, 4466, 3912, 5012],
   [0, 4361, 4625, 5982, 5102, 4778, 5781, 5363, 4151, 6276, 4694, 5006]],
  [[1, 0, 0, 0, 0, 0, 0, 0, 0, 0, 0, 0],
   [0, 17, 15, 41, 16, 2, 28, 13, 13, 39, 18, 34],
   [0, 20, 17, 15, 41, 16, 2, 28, 13, 13, 39, 18],
   [0, 34, 20, 17, 15, 41, 16, 2, 28, 13, 13, 39],
   [0, 18, 34, 20, 17, 15, 41, 16, 2, 28, 13, 13],
   [0, 39, 18, 34, 20, 17, 15, 41, 16, 2, 28, 13],
   [0, 13, 39, 18, 34, 20, 17, 15, 41, 16, 2, 28],
   [0, 13, 13, 39, 18, 34, 20, 17, 15, 41, 16, 2],
   [0, 28, 13, 13, 39, 18, 34, 20, 17, 15, 41, 16],
   [0, 2, 28, 13, 13, 39, 18, 34, 20, 17, 15, 41],
   [0, 16, 2, 28, 13, 13, 39, 18, 34, 20, 17, 15],
   [0, 41, 16, 2, 28, 13, 13, 39, 18, 34, 20, 17]],
  [[1, 0, 0, 0, 0, 0, 0, 0, 0, 0, 0, 0],
   [0, 1, 0, 0, 0, 0, 0, 0, 0, 0, 0, 0],
   [0, 0, 1, 0, 0, 0, 0, 0, 0, 0, 0, 0],
   [0, 0, 0, 1, 0, 0, 0, 0, 0, 0, 0, 0],
   [0, 0, 0, 0, 1, 0, 0, 0, 0, 0, 0, 0],
   [0, 0, 0, 0, 0, 1, 0, 0, 0, 0, 0, 0],
   [0, 0, 0, 0, 0, 0, 1, 0, 0, 0, 0, 0],
   [0, 0, 0, 0, 0, 0, 0, 1, 0, 0, 0, 0],
   [0, 0, 0, 0, 0, 0, 0, 0, 1, 0, 0, 0],
   [0, 0, 0, 0, 0, 0, 0, 0, 0, 1, 0, 0],
   [0, 0, 0, 0, 0, 0, 0, 0, 0, 0, 1, 0],
   [0, 0, 0, 0, 0, 0, 0, 0, 0, 0, 0, 1]]]

/-- Offset `D_i` before partial round `i`. -/
def auxD : List (List Nat) := [
  [0, 15181552030235958995, 11766217762760738244, 11874218825345720081, 90186314702947945,
  14654789209400819284, 4823796385407465103, 3387563907288348770, 8638758941835499354, 9163195398202055928,
  16515983160976969331, 18254051381448299383],
  [0, 386125500533222451, 165859654820978343, 12463503938332454067, 17813454779234643530,
  10320296888403526926, 11043596957746255048, 11129012510719359732, 12256032102951532417,
  11942496182319814542, 12783287153011580809, 14340168082101173768],
  [0, 1215132852829672363, 5621140901847400797, 10186122982763068530, 13590993772046433658,
  17255644272462791279, 821982757195609021, 17542166151658909457, 5889190587677710821, 16217581276867928835,
  12327966481707732900, 9601915124849355062],
  [0, 11655622177970694883, 9486541218200242737, 13844090456202733996, 1997851645944541785,
  7897743913565345427, 13313542611142469274, 12248876529389512590, 8092263151396440940, 13772512542929773091,
  11453136535386932341, 6434317922770177813],
  [0, 17477898287143070516, 1446941328198471882, 14073528549762942009, 377248117773411640,
  9839026624690536691, 13591746096018241817, 9137148424495527211, 5773741717309251527, 4846014893555867912,
  4236343484378035952, 6278849147338644169],
  [0, 178590784088017327, 17003812947771125231, 14410482926117193641, 7621612140600949194,
  18163174126434111933, 2481221986596649038, 6503385859280639406, 10443419244187147725, 14598014830511800770,
  12455952502489823561, 12706590613181584598],
  [0, 13380067266756482069, 12749681793693181710, 14835983985022325661, 11741605319218072576,
  13891481278328643063, 17538561409908685668, 16678145908442957261, 6297738836900429444,
  14868599267044092316, 17717738587669974460, 10900025763180824042],
  [0, 9629836861795140062, 525341218664204379, 4721476352842758939, 4243930476690323784, 8779426971842023766,
  18180292965269294910, 4244997772229448343, 3799760840953334817, 7968982698335200129, 9088164793138628408,
  15214348122720663133],
  [0, 2580297576972298130, 9018982376233920901, 6754340005058549909, 2822962369588407496, 9554749822326419890,
  10674578942522780342, 7782971674760678211, 16504096448973849440, 6771032018838457474, 7951365376033816438,
  4671724151857409538],
  [0, 9808213036656958695, 10658098086157671458, 15936623831410288359, 2234355572723152441,
  4814907341969728157, 11682685180787866483, 8554239726648199292, 12995277663831718114, 10910052251509543452,
  12406149696216373260, 11597417922796773477],
  [0, 14373813359444605914, 12946223403216505297, 17170527572586636255, 6141157008470564485,
  13039565207373711837, 3795644609793124111, 2864633745915737686, 8935026560324053877, 5170970196999179353,
  15654937832097126222, 6551602123166816550],
  [0, 549362984172817427, 7345681454275693244, 13755771021189993623, 14987710123611830450,
  6929687543420569853, 3787782588063167118, 8077215971930165065, 4533663305754506713, 12052976592923652768,
  16744657044241585646, 849823273708025920],
  [0, 7005029510920736507, 14060333512589125481, 13522631717118888275, 15154729773359466648,
  14903928695168447773, 15552349292292314906, 9248451001453716674, 15134227950508706214, 1268482758729025245,
  11083683825044072091, 17080264462371396454],
  [0, 959210181476029643, 10729864421418482211, 15214668123208036124, 15670690644012892372,
  14211673888020873176, 18425718051888955007, 17775649060035016403, 18394514974875374837,
  7615662122508148614, 9971056787861111329, 4828051778130603183],
  [0, 12377286381275383899, 17664670474896629377, 12423841972917878423, 17651217139101188239,
  1074329424965249841, 10916255812327412154, 1329033438940443964, 2562096443941811931, 1768816119449806814,
  787533879729648854, 13604000421933512817],
  [0, 15998991628882721698, 15525156389063946112, 3329490768932855518, 1034355318489841683,
  17162620542268762055, 7878568868915913294, 134919136378265234, 933774456962787937, 7126076658215391985,
  5648565642724072701, 1598445118354309085],
  [0, 2281676174253059736, 755120923785743784, 886942853205294906, 14510582891108523704, 2424394454955401581,
  18255467939191144660, 16168741493621155494, 16145204491803149013, 3418132477849104074,
  13741466944910757198, 10204839565631883304],
  [0, 2573119271926073261, 2380037848659162915, 14928882430816238083, 14557762317606339293,
  5974229578227823315, 8111400854409692479, 11058008471519211155, 18165883478514263396, 1816878586172246227,
  11075935918076954533, 12597431267388711429],
  [0, 10172668661793272238, 6484660276429355742, 316884415647010935, 13664512502063945031,
  9373652697355071579, 55038879838641936, 5239840570511172902, 18400290784372188401, 2896996776828729035,
  5206003879753482074, 11974537717831080676],
  [0, 1504139509791520215, 3518146172794333118, 7314191010943168908, 15746728672032651218,
  5827596611763485810, 15211874709276273388, 9912362280327624775, 17524605364105766591, 9588079448642203753,
  12698840358607605574, 8439835335122026876],
  [0, 10255847279060185365, 12317637979811184934, 3001496809320023526, 15254537037856235775,
  16694228624899419899, 16217021315840653755, 16387971759965605065, 12705477138413876728,
  11494783497233380532, 12888086601663309254, 13927517551942603834],
  [0, 0, 0, 0, 0, 0, 0, 0, 0, 0, 0, 0],
  [0, 0, 0, 0, 0, 0, 0, 0, 0, 0, 0, 0]]

end Verif.PoseidonGL
