/-!
# Witness tables for the BN254 Poseidon proofs (generated by tools/gen_bn_consts.py)
-/

set_option autoImplicit false

namespace Verif.PoseidonBN

/-- Entries of the MDS matrix. -/
def mdsN : List (List Nat) := [
  [16023668707004248971294664614290028914393192768609916554276071736843535714477,
   17849615858846139011678879517964683507928512741474025695659909954675835121177,
   1013663139540921998616312712475594638459213772728467613870351821911056489570,
   13211800058103802189838759488224684841774731021206389709687693993627918500545],
  [19204974983793400699898444372535256207646557857575315905278218870961389967884,
   3722304780857845144568029505892077496425786544014166938942516810831732569870,
   11920634922168932145084219049241528148129057802067880076377897257847125830511,
   6085682566123812000257211683010755099394491689511511633947011263229442977967],
  [14672613178263529785795301930884172260797190868602674472542654261498546023746,
   20850178060552184587113773087797340350525370429749200838012809627359404457643,
   7082289538076771741936674361200789891432311337766695368327626572220036527624,
   1787876543469562003404632310460227730887431311758627706450615128255538398187],
  [21407770160218607278833379114951608489910182969042472165261557405353704846967,
   16058955581309173858487265533260133430557379878452348481750737813742488209262,
   593311177550138061601452020934455734040559402531605836278498327468203888086,
   341662423637860635938968460722645910313598807845686354625820505885069260074]]

/-- Change of basis before partial round `i`. -/
def auxQ : List (List (List Nat)) := [
  [[1, 0, 0, 0],
   [0, 15385290570636063468145921296216810281006185341075070075340369441625889056996, 19915338773315138464191706106029795385509555548883687049347818884271624388636, 21404868327225801737835279596049890222195935636691408792717675815354686952599],
   [0, 20891557197227623060451904141440160323769861774491291116275834265555621077565, 21467049621078296709666654475315143141588318014990500750109005664609868334130, 15710517595024408290089671903942783802550326284307038692366824990572362732182],
   [0, 17364061536748658799617450533134795641125185393565671505317004422029639660070, 6985474847079375364651844725176695584009033351866694288314418601386302074546, 10375137887852416835886310597775653303692733560515503232409036608851836690781]],
  [[1, 0, 0, 0],
   [0, 11138033834379110354058335581337347220019864453689174044727243476133587406566, 3535619002730492428109078485706221113229272853928373283190505437942245306307, 11419407061873311226936130936319103391742674268467979243245998916105442701347],
   [0, 2286726931576293355611828326074597866578672515857575230086215843663345737168, 4498741795696334787157718992035300272490526542675036793007175832215184091027, 204871798117711876986211630497398637335619987688537832027827663514210688007],
   [0, 2998690213615582154425383852076384519988714063625902972249113151511652374099, 5199000672444409605191626777103550460008948297394057853156821664968121765880, 6528331847859340623885888540072291665027858329752296122667143409400052498704]],
  [[1, 0, 0, 0],
   [0, 18541536388946837235790213166551411354312735369470689166660551669914613933795, 7191839106176617774992187863837031806829607711902228070564499232182975713784, 3979752861585015067721206609520369210040339822999374236185538505069145861300],
   [0, 10809560578081507440852722363671711718178191530402473856644012716220949760529, 12105852926722042661089273071889382559465735998872464726334928994869586829280, 8901634276539495911316461530104931355576184465280605319375408616108717299332],
   [0, 6272411681609737614658090691878157715561119757915766231660339038140797176190, 13271182300438989269438441577951262928968494748849751563737578908284323443064, 2568111345622882172462763446463050844178144174507312536641669099010363588216]],
  [[1, 0, 0, 0],
   [0, 17685822378557979324704984772118967837025204887816614801128223451410412882787, 19765149492344180495907624820710191044453763201656582570126581512940353346623, 19166314184798829105507728803105174547887038497127884277100749956170488722704],
   [0, 424116141786014797415381255030013994152076423910775676697056035297271554469, 4165561614163159323382825514462788957416153277812061850436311914404740329809, 10096944695900042492057705395083941858744929445824610536733210578134264220007],
   [0, 20813895045826657221471299907320359218551770549079302116150658251450950119698, 12188280683649419398757747914564313990348531144355947799836341619855466938415, 20881206875696018509612139366611842767136905240261316473254654347475022475131]],
  [[1, 0, 0, 0],
   [0, 15949159986870167498655196754692980062297559020198506257184346873262004470645, 10177473361114967747329674260921485166597719852232391122356277032555506892349, 16500316719260081443775408669349549755117790019474779864493987261982909382863],
   [0, 9428918988128123729683270275271030794358994456695369075787185029584283975297, 3539749213624973136390442660463323029789774735071082609020385311692606417638, 19575030452964067673925626566942185897886810373256395320126010187903248843571],
   [0, 17652599589751902861347071514160841232662619101959791292694427524465271308816, 20485418475314784395812661110521185791025343801081649989665351844684652382730, 2033536081128256245850501228627330584615664088440108720216522618933949020503]],
  [[1, 0, 0, 0],
   [0, 8962325347253272018016837266612380950127634969294959525739340143413110695965, 12636680783394607231905713025970360321187395821707639256808825555491138776856, 11041001304442940950723491990247640803951438808340899134653285285134084872579],
   [0, 16453769585044322710790427441620899924163530840244125195009936602898566506095, 142476208086277553284658336706368436399504820168255788720745276427788578094, 4735293360422921677298677732081470937187692975801650717184316125528587359268],
   [0, 14807221065273969612146492147284888349264891495440401471600404896779831209760, 17356982904780292673159463199769497911323637412181585169837001424773930390068, 14890261188975160759006159992090738576365891008521359965745626331076186349851]],
  [[1, 0, 0, 0],
   [0, 19779639479007707133004853800876796603179061846407029809856052542999994113168, 19272568681340630082672221457471000004338170150348479199693057828012476486544, 1057033778175257177904125799755997160257981468731862186369460768125308344072],
   [0, 18046208200099115567790825267297661330477790629205900621738566699093912270994, 7311167496165370772132759060822674353828350791078397594722071637907588902031, 14521291839156500243360005195012414375123273872152090175567055350205508486813],
   [0, 19044946839414854593111488295336128359504997987325110183512735134734146479823, 11050598349316054846301308513620795449249445091959614773695219788749039014905, 587427762906144505913818159090675128868672263802172361847738064459207507260]],
  [[1, 0, 0, 0],
   [0, 887030123219728153933781460699553640794070534669949689486057724005199226635, 19631670131523001597023630941887263710045904556408786257919293442245151687135, 2586746484582639862348908365594767735877446015684861347439553555826287623144],
   [0, 21476386128444201089910548721546064593876932864359159063970890112932193145201, 16844302831702104973016048110223710366502671474545115392303843468967560646939, 5363724124138399809998157808170642785112219189518582909612390905015626091621],
   [0, 20601254348900663793912022962932263768652723364545566509161695235779861902337, 14097236971446926733807311977559186481653484759788019597391198932237180643850, 21281386276226046525526469957100039297766117412129239779089013681659832041848]],
  [[1, 0, 0, 0],
   [0, 3073849547059024333199567371471796882420469045042650796686024940842553380287, 238313479611450691258235241228930108986908661939762894404986306478487951089, 12472639616441328400074729580884219933264069221119149617681321228264370131009],
   [0, 1314769038655734341770939731252716623147428761795284525882948210634640361311, 16895317615253663937290942936005342265481273085275894526092320631246842285403, 11158498132012611219242515586869717026035433425436659685818800732515321439624],
   [0, 6235227163145598189626208486598048405887146162940768578692000220501588531301, 4478848161388712063374035275911850212088762441380457116333542930180905185104, 7122386628514633523912317106572811411701819262803708914363324684804328621782]],
  [[1, 0, 0, 0],
   [0, 1888811768184823112650361190174857630116699325752922541132765919122948321911, 10129247078612999567844912958847209848684921899159485340691060174117384849214, 15419184244268254941190956713674213563181388006519655312555048525043809825553],
   [0, 3116751674840752248305104149303900504602803001281408906253395666131982122948, 4966983604005676590782837061841800891140210853385390036760116534723159664854, 3938810483744835629171047468373128517544547298300743908720480436611235245255],
   [0, 3861642942479981912398121954302371832180074209191445428722886079988956121605, 9684024525496014941266312964524294083501590181158180300410601405112201208162, 2064420331320195414071961024648226187033082906338719784042915159200577460273]],
  [[1, 0, 0, 0],
   [0, 13148065626810144507832007441160019643607847845640484434250295824543525272719, 592524016425320037999201096764621713353319339869282891325272147025984872952, 7715149436577472295010978588479891688101403843094647851351037539744273362441],
   [0, 7814193798603140706622585095309581310356726212173778414970867875117042845506, 8165567981005134977327331476874445774524715269136248488246258944994873831177, 17102772472854623336337845866510486533601043411192095894427728539919602049547],
   [0, 13395927362928786192603544514985429971437761880336441207503329971657093490181, 11900287030821444554676711110147274474682191690571540337192284915032251165772, 17201139217817500470094133589612320418423057811020772311730864400510739666746]],
  [[1, 0, 0, 0],
   [0, 10115061098410593341974663071661719141361437883338975443869582342438093502970, 19805967688934481186306803470136871667840488038574379613203853708666810328979, 387522141408732503114612262157364482794897305744341983958976264303996654786],
   [0, 17250138575879335380914427882282291091595042755925403298445244339902530871154, 3381364105585477217603319675091963005807665807696770926713717746679186914792, 10760814843150021139739931753157132561483648503562924121518448152844513392760],
   [0, 17091830362868497550907116974426352017865251075743300690756273916160149357054, 1026705536201763174875302279549170362364741673592650098045278660827665210106, 11612732668233333618252910590411959791955471163534779306284024930201089626881]],
  [[1, 0, 0, 0],
   [0, 7007718114201970807347055280001145187970646741895058351002937588324574614376, 20191366728179524263768462424938492163180240642552718140763938556323884660105, 14310070713583480723744353586555210318845576095617802126021091031606012006528],
   [0, 12109997548668540416205481916019216276828978184458263871787988890456743932448, 4593670931914210407312429999147076725107965228912253267772965181031977477767, 4254801067393807987299909828538912011596725400488473238669465035863412265007],
   [0, 18934630151506515643020658876661927411825955225946755714999060352981620482082, 11761597314098453961079552860558345334177397718314255473881652336206066408871, 1163940627534292464246419619999252586509775328140243922839425123492738255990]],
  [[1, 0, 0, 0],
   [0, 5964595775137511674542478125496942316749478365698382368406296321542629680139, 14311122823849950992111399118884814215467685882740522407215810851372757918455, 10446218563707292148899636717245854581957582468785626027807430860817659761904],
   [0, 10936974883408258045157116788126988891106073485635215969949304064552870859546, 4114209960678523857544184466619341913513837160100224007450343147577618178854, 18204821747393552445540924230039190160988190955594980267149501867116993865056],
   [0, 6348877456938504016072646876904400304698912636131370808716556643614716883892, 21679481240083737713079215788139160378338608191335889021838864952141085886664, 13822740558528336972625222020342045574805039957648356431196909297245783680175]],
  [[1, 0, 0, 0],
   [0, 13417190958824200891111806471022573668042527082908743434599897427367875709606, 14640657909866107035027319647112348129620031622715071710329533994465238702284, 18702936136458775776647617830070297289051785169231319784583790302709727592723],
   [0, 8449281096153778675753859523243107043489132224780761319321216017181554037767, 6396920762153923709011315230890393210166192377493516280252378495765465597962, 18444604403974107378674892758907802540384445632750828266936238359457046116272],
   [0, 12092349372524546713826425809315935933300866190737730266785423036800627856672, 6234981003044065276331252031504390211601074770528411898146027535335087627020, 2919817047374671314345742945808589234306354043443834422238141435269212305009]],
  [[1, 0, 0, 0],
   [0, 2928757292666277180495876332170894555901379730998336185234101011431712235637, 11012692918216251203427051492882809728089540056909512299472678956967656824872, 3682058757210018049805860991536114271827587064836035640849613785514773675640],
   [0, 16304623411386955450582078429294590248585074645093286293809360857729524593635, 10245423607152739820780895491734013362338446380771473863889964553291442579998, 15825941321511498048133962214379350916192801264937664452588464608974995855188],
   [0, 2396436274379644781044263509906524745464730179866825056077815303744967812868, 16356901545115756725604259185441649806296284389113745958275037657195143700344, 7610818400269066840489154027842865320198312899640080159960230817637170925824]],
  [[1, 0, 0, 0],
   [0, 2641907919758539938984962994979151726685704172790451461028452274345034329370, 19904502706103514704622471937374805986524739290892536341220921063372880480281, 7849215516976500234484565721424364877933331428061659446382232176235973823534],
   [0, 13332618406125799961333242745199376387298340756288411330359508724539916914171, 3815818733691913163486931557866904084156924387269289557600496679562095965549, 10955514493659518665461930654904305175488040384916657639971022360656764023132],
   [0, 13728585815192730878623653935621649537672597862080208960391294854197400855841, 14154435359856969559796563429510206512758044309924050053787352981506134991551, 5623688331563695045331369438063191098466312536101100662176674337612069148596]],
  [[1, 0, 0, 0],
   [0, 21330078477439398060915259350293597439711830987752427713176370238601424242206, 6015429262939147791548224329452554456978365461768972919966536422852876119604, 7458522739795201432919246431601751369250700153441521313428269493685646285456],
   [0, 8793200766577664998281968155736982449980322146035238684025797676991982486073, 17550040951010217007027897465048505944804714436175308830011349326652956792273, 21284358571100827736603381768256952928816901387156022529165840413704258375012],
   [0, 8455824428352918513514089200931563673355911947764485589680587614459875048355, 15766509689361575172219679229758597908534338120160150051285364542650747335250, 6785832678825352522806476725818682810410924860355929612844278622330044227854]],
  [[1, 0, 0, 0],
   [0, 5850143381381517159953538008968929504468063126238125700830160831687872000279, 7562575957312419505960049496932185542552958296354975393197599445953872870119, 9431285289603385441028114043745605526225307506365038744562942685770842683142],
   [0, 5507458820972311882823857960899682948977958351244303146703864483849655605618, 16738324539092853217731440848749833412193979963533183085006295429186680782079, 10876443765152243387690977596447032209572389271496869541917883022112625166967],
   [0, 5127363468883191534971447689886729164243570592273128453142154246268311276191, 2083285830586743877501342221984723995751733455988927170187237154675140937142, 10141357450284413358071928644498659450186717032914142638545087759973596145965]],
  [[1, 0, 0, 0],
   [0, 6296079061329867517719943265286033266367785739617841298160680247646116099729, 5740245440516731498100580662557138298878975895614333155435176915366239401581, 15867888118115660066553910656956301769845455018983561770132223499705825325589],
   [0, 8475548380268370256211304072830182826082239433927615051210823168920015686138, 20125159550037230065403253828399205587904601266698000526650402943120294597044, 2802065416970520521704619644449215837714900198305793343957182194358701808427],
   [0, 16401511145002032804381525579476005909517395916466886736767694716635214244187, 4732867409066324856613979214530803643871806917870615322961267361233193396717, 3682432756178352754110425641615596954681609716424983891928390871284439765176]],
  [[1, 0, 0, 0],
   [0, 16908937066154249768667901419228291499974550707910300697105554541921566612013, 13127288007804531726177171356643595263008946300291437140566433960009457454088, 20954226807187625882344556670275444971492855953498153456422770887077789259575],
   [0, 20000979832548206761211060918917893076886355262032792244098136829976995422139, 20082072986567090290383543923505250754951749014592873672777345587309204434124, 413937397688381167210481389186014293507101185121320322293650345592799490777],
   [0, 3175499531019654812838988545397642741296922834078761314967534920034070593871, 15785853202374634300704897376191774984603752951003588746099312023362891369221, 20008044017150958376919178508850519650574605226959623248376521822601170088859]],
  [[1, 0, 0, 0],
   [0, 10323201839967855786799749583528391559042622901466018425737437153213441095684, 11265022123072318629835289233022281238064024339673492487406145059137360479761, 7403762602304441063972436599564994544457042476481293517549385102777225575205],
   [0, 21018469402340818505284201297248599748489354956967704589681628096109903561025, 1064333702141716032040684913082911563227958194495968117852567136535015653528, 12863359794548185311476744439383825588102790041125762956910774403529012826328],
   [0, 4331346306160379369883492998766809412523506603825563809276634784788533680414, 6987013144871282834337953879444514690019797805548701845549012855043929303305, 13523679259335826979717624055471088348672477065481244083372334491277247673080]],
  [[1, 0, 0, 0],
   [0, 16051245372545406817773550723631828056222323541596754095884059672659283685268, 16466368650946896606764601917049873177547164512980489792142406120723104729146, 15181559840926300474787565034400281591978831734340457178786186174829406720436],
   [0, 6768062807252341264521437985467995064475004668584428378558970965844066347418, 17566656319164787007257746922941169786142793214148069034958658846168525192125, 20712905205480509953265896028120389493425645908536129440709834226416096984345],
   [0, 15356474517730138213624019600154281681966993060095909238057111918465057601408, 12721551243236600503971318442846632181485482854546937084586660773463226585747, 18541738344872793058349921439111935196640592773342222013220279661262165682825]],
  [[1, 0, 0, 0],
   [0, 6031350753506241188936979963232330293606607466193208341881517654730036057158, 16796080575672020029517060799679506072165931465952222128304079132481846467645, 14909964165971864173594717521660104308111336037183128395624959778177515195831],
   [0, 3183330111351691280188513454464825636499997280545636225940896160220604382069, 4679324252670854084042966210941795006662117825412439913020832472864809967909, 10887150938583558221824704984547690165559177898808078795110332418066024535506],
   [0, 19538249077903242409239292520089983575174374269335879206499576182099462838097, 2211786409073354920362419009569459784433618670651432467335973339794484573467, 1215042806436522448824488208224565052474233618870192890870812056693505076090]],
  [[1, 0, 0, 0],
   [0, 19638733911788143675395791420543503271066521598450895409836333440673427957095, 14408320753676209419855539417148570393067945453579473873422707992833820540955, 20048605704472390655307460199471154417369586760983925627244318586370491836645],
   [0, 21009179978770956072473382772984967057201261268443769671408432259422234892175, 14605373618633158815805420782747917407441837424214761560987396816463931195583, 18566387895614557748715636289694870810068800884316757544814003681747805900232],
   [0, 14076080857883403987356525188619868481989862355178511520090859341592221084543, 12862251098419763282750545114793646151627484389504697679166447790226834861762, 21583657304506574639197187072097881754960669989141661524489968511087301326765]],
  [[1, 0, 0, 0],
   [0, 4025911309314892501506357959021538814289128915270968203270840607063832181361, 5584167986747506015533912881727893082570894554044166349508525425448475542146, 9999957712839458646903419852800915830068812072794981075603269254373187289967],
   [0, 3555541091365381529984650588928015935470279580179611870478887676349619597725, 17989575294620796771502000583640205636977081531875015579334718586048995396837, 10397289274453095200760336906636583004992393331546490831493187330244281754623],
   [0, 14396877244864622612406896741772298111253883381843922374904748136427609870911, 18754370386243864970963283992294113737668465264532525684434581984113030087715, 6779389584959077469590746219746451187308734410245715443182607300724805705988]],
  [[1, 0, 0, 0],
   [0, 15291151662781200652916527551616310367308257481144283629854110776105871311318, 8147890293074836703610675733716842249950138922023190728559523553014571741162, 2642140206511356007575918719716147893431178544308057413601270968780312849196],
   [0, 18067695820347015040783568703663528954208219727739789873042121627780187635618, 13733911400673862602462188782454763581722556537483771432661818124781901011922, 9013586217465195966975245927950892113699530673107424826080101277535687021649],
   [0, 19324236534191038742615237611667527031207989052216092288916420962308020936586, 5349241254955465406965744848711052346687513730659937015398035160212983755255, 10938319251619469241454811580475932334712647990115583858735939415215191136338]],
  [[1, 0, 0, 0],
   [0, 14469898264590110857949091323021837249105683673084429142739754826861907706860, 13794651842674595391061399427824212037229048029924640807220454286192182474168, 5483403143255424389058274848545832037363004352832586704813228976034490467372],
   [0, 20169717704383948190753029712200761599791199009196280120481221875441173002129, 4603911988005172826592542454293882971105600685937246781604575774965927494579, 11980386934237985899626916711534929051240869589868980580318505258322105187810],
   [0, 18462572101913670991435402936438913934827199486555089382235279578417858727079, 21016063205068877292925160122006786918530417293945474448609829542074434438706, 960216367748477249476693279597753579767238567883296483127922207006281418876]],
  [[1, 0, 0, 0],
   [0, 14240626023839167652930932966496401391540612906623393490723202849965762936215, 20951374707523631650859224530100990949534778339829584388885890231144573226253, 1449698611998256512018324779054915836455378943844695584892416812733643025406],
   [0, 14650647561687697073960214609539164614723071535587838646497931616561918229532, 1027125275297234857615828852369078241233047230477153306650231930355802623046, 12862082922845972668338385698938805757680419619092947689948223833562007309656],
   [0, 18424685880691602902363539253192261579792516465965465787239684592424395912172, 7339727832213949997712398291072051196373226916621737587701534274436665038755, 14259339679194802116697133800850414163580633439262567979814756586695974475386]],
  [[1, 0, 0, 0],
   [0, 15313366279955234402886064159518684644086839267677166234361647445437437658563, 16140150708005191837172561050814164271359634013427567622934793533130051255893, 15741495439069943964357676380084256027391209558927578798700411846458064510605],
   [0, 5053632745472444156059327024199074921590908887336601590369088856169402136219, 3366270859233369595032571565372119129553905228993015147683473423987945742816, 504219568571508315033384234003197293107191392687135085682830573687034492144],
   [0, 5017975023567465850348285064229680126709627436891274823251251697438347353040, 2688047552691635070013743490593856482908250890405806484165703904985412305048, 16750107938484702964763834280425958865736331190020433721680717075641952790428]],
  [[1, 0, 0, 0],
   [0, 5489383738150889701508653058245419303941596258693322416797226656227453557809, 4092452330936680351645622366677159086721975629853164292909001685750699079010, 10087400823991729572238409418224250727405930652235361920585729269297834599898],
   [0, 15752150785570895418269820130457700164485014650187789552849625180728811556525, 14735977653334984528424614541021090993853190711667142221812692758898488794075, 93197864365134690560873684549169207112046896158309492101188984388836626561],
   [0, 10782246546358080286265730396857873825729591363019724979185165299294700333203, 12007020752369271513787666761994521728628473452553583951970108844658270712060, 6819024703888086781756202199154913288412895327100433818918757207612474371882]],
  [[1, 0, 0, 0],
   [0, 17379717913580562694346978749643207648740451860049385737973187735701334341389, 5450283989278072046716705503906547286189299054336737574897034341350560899043, 5835720351068413819436640000377757913427980433746724337893529571017523202407],
   [0, 13707661775663022325344670973271515822902778287750412331382647876307749896051, 11816501094505210654009401319336030591571293959697484155800683527976863636300, 2768318498385486555300430490580414710588530291021005172922144641687418565927],
   [0, 21759706808188526169719327962060640984300743544661261206257581052893739405620, 15621082652573301188848757249613047602715650171649371085879162955081604555036, 16587637325032759763955191504517516426679165153539175822741900405712222913144]],
  [[1, 0, 0, 0],
   [0, 488998882801618059242921284421385911316705249537070038802025051129328037249, 15522010936954222708515115178186381873228365871637657995205765267519156336009, 17542145230620112190917148849524334104991911633923360855564452316704068576919],
   [0, 6377606516015979027186531327637896190960959318171256415444812365258511995388, 5619533152731777337593898477462534169473808503410426601988094364850927439314, 9993712792685675969154810756331654821956387404782474351525768354020624901732],
   [0, 5246998528369991598114595301054682324613173345770348791172486251829642922023, 14773104934833450399853451435612960345601856932137920520341526921301222964889, 11083804451544038585691186126071576078696915252593120972654359767185728726338]],
  [[1, 0, 0, 0],
   [0, 6003756853232745387550973359924403417395873797520462948692091984492080698865, 1727524478593516108563040009475700263235823985213950836796091142430125754949, 14231435995500611084048560898196658831196083558509957294838957555520136979675],
   [0, 12179181148436782179364860962520783322747539462262666136342223553256332803949, 21678171115868252436299643407907841221867205943315540399827857630718431283715, 14230422166576048256964766616146694719791010004915588668844386618516769145766],
   [0, 5128355707952339021286313309900214155442625184558859687944533962056366555910, 9190489682378305260625490426773929425912966200179418752478673639428590018534, 3570916028773646943848490927937691891114226228993914959378258155698943615216]],
  [[1, 0, 0, 0],
   [0, 8454495617525192707729171555089800691814638784417328797230595460008972635562, 14782932021019829295945208081147210140510176018885072024268586952541398830101, 618730695921316086802617873184852489506749827671136284784393248338253244816],
   [0, 16744935351340354285539654094067925717397623468012394368377469541134231636989, 8687957626441821451506199393869446048467193989665746562926044007763107854559, 8881216400533683764613574418103893749394770569357234592136060461063463086893],
   [0, 12096598719562074609833359799332409593622829664929169642736754245750213541915, 18594966093018581253505011293472223170824723998846530330360304538008850758376, 8986943299875837607567717702463042198289894966507048515084195305917728276839]],
  [[1, 0, 0, 0],
   [0, 7637318179713151239320476507600390152843329436937485232217311689856306497035, 15134534312005140930305509396430328749275628367289375052988874753474071928585, 17096054380558704962689563307819811817491249240939199196994419229084781404086],
   [0, 2655526080808131891125695242547279664657567547881930164213516966809352055392, 21708844026391830943729963684042652867570663418684393381974351123762822340437, 7299926012058390509864007292451213000630816323608437965126346156649035574081],
   [0, 12864214834569359192655780014756151096184081140622436668246257259169317770242, 8051654434327204840717323913674975492005586407979386717616062924120964574745, 8671380156039301861643052490155238574582100967880137475852335316557286842096]],
  [[1, 0, 0, 0],
   [0, 16241900172598179284959844743209824837692546044963427026775021470585921231098, 5190675558782285722159561515622349807402014108261873909003816270065115041292, 15213585893240216167389690064484538534582667374056414431711974853314531514752],
   [0, 12005294380606718184225883309229215700572488344189691571069714236237682539119, 13751975724102458778492097742617258510650733994645293602899462223501172211077, 368421933324698961927862582844003456742441448551946725794361821596464350208],
   [0, 10048280487115699772584595995784336054513754672694081545680402827587786549474, 2282547397688855167561516946235869820875256223201424999668059147615894872839, 11986282290878883011980327794269270298102984597479080859752087723197614263575]],
  [[1, 0, 0, 0],
   [0, 8632059704604409032553685317358253073666441215014293696194210837356557280015, 19006713701786205320728687400988653183229504799983791201471446651526446909237, 8064781525869351842321242539000766677634322539925908465459478897943108444867],
   [0, 21338071115875395787403630864101894302578105439174702651560406762179669579514, 2942628500277084156979763529698420450465324137129536942374801189243292553775, 11632572878360012063670345868259893946471557336484815367665312498867294354366],
   [0, 20886216807756895533340988699712085108100305109396229522615756498201948175832, 6999069034360165034333494975936328096667680786135624829227582775467174823885, 20938151999126969216005658152422794442337742285648596212308976527093147995290]],
  [[1, 0, 0, 0],
   [0, 1916257441163516434767331496130996671431987706587536644769213975396695951463, 6120621741439743643377863655101409384118805656954105061999326252774802703941, 9816674086968593101581717791595776176372247231641247785128701714697774772284],
   [0, 16545325000583595248456272487121331915797777096492538675303075606932710823530, 7783658748413304467362447337048102270484528867696781716267474933541946227112, 12183226005566673015142479705964312226744886393953330068390868139960982773026],
   [0, 5800197195816213201686722530304417866405223651033905296891807541699896377567, 5800325349142592127615889645597850979344539373268705669907352422811467613767, 1652910069580847876303906939572902260411084417024935270248566715284136730755]],
  [[1, 0, 0, 0],
   [0, 1486137012631487049744173950177799715742564295181635230111335458116980291776, 8088657647545373905035271881760287070176757375152839119868724322049603527270, 11425432233122576551477590793968486775045503181829617221393566394602160166568],
   [0, 8145413245330668373393787564902786403828265460496463947954522181557879746317, 9154737102949697785021365672032033278557738034782772357425687574680907384617, 11787518568540275440681636365012162299601299077907033281487840929361045455627],
   [0, 5472544796236445854604633768877881528844797113571363548451501058707908058009, 11073400591960387650911489534250107618411852950278738949632117062972597438683, 15478282044039474845182473995280721241593304152271385912389964756674631818061]],
  [[1, 0, 0, 0],
   [0, 3149241332648303410232158562012000561507549290508872615780877024406701802978, 5585202939915893684260322012301524158743181962612469325610875404111766016461, 8683700510779625442212702476767079366308238439354627047727069480326810859343],
   [0, 10394334890526710347694775487679462013935725444760900836849258189938471049229, 18381392278324686736947602547715943300400704571307614022881621210353963160949, 14459446848960259171099498821619049123734896742511715512131970672169100493319],
   [0, 14776661640824752760760127558441525979149879776541957687676200397284000101919, 7767878536751041728296470358350478109234720080093335413886848288412702419415, 9635252435977776389512060816449331162194006999221822448079946468807963427078]],
  [[1, 0, 0, 0],
   [0, 13317890050789570776292237362543266065958273461983428019445851074748891821413, 10055274464878548112768741209283886281348747405194329459568369555030552633605, 2041606136779492156325943207205199891203062927884642478431550589083367849110],
   [0, 18402147958482710723973445260264403738609173960439169760129182448356156438192, 1132217586982489631401640437360128243662706956466253043877668636438981449806, 12824969066312789271139769085204273373593744356828784708361112014239725311643],
   [0, 18053870124688994898518115849672933396315001120582540742017417286505506514186, 8160431843982760472232014470499909271461948893960404541018012436868507189622, 19842257819790105662930844866142515083433936651011433659647546148346364913442]],
  [[1, 0, 0, 0],
   [0, 6517128226278378067617428915264245504726592837789483028366613765457940324974, 327224844849543389792833277297934543778942206609672550689215342858906627955, 1810863362270961033317228876396079218491505345505941450755994096391020264038],
   [0, 5298777736690094456111912354295534349890690302090905710568287568663368449114, 8399594966188864279124017188068845485976083448404095268970476486368580881083, 6820066242182743948841252869702528945698878235744172310723181747833974759823],
   [0, 13207057944994279538454283509687340257100235211844966900038000034782666067889, 4809863947512339225658814348798619082919813337361479172717203270845861836505, 13417376963447278531266987416457685397330199426089211483764226730432882853765]],
  [[1, 0, 0, 0],
   [0, 16182630651197660564351176063313754617312600356189751314274231875474708640914, 21515445874104667776044708530915805244666827302161350121424902544835007953747, 2074640861441627344208965809917785113515712146091906244020535506332928296465],
   [0, 15963443199724515482188149168511599898107356519092949145460302588315487276290, 6003094612815865615413210357116296819665704154716198876669033257742094522717, 2818919250235841889193024388142080432424176918761783586268921383026797681353],
   [0, 13090031861714975579840877421698547584724866473300016453058949829824673329844, 17010319877658277614153278255527703789211951079223178401197547365954758105171, 1214524299589437456868085500933690161446394325641592600723025663793731426975]],
  [[1, 0, 0, 0],
   [0, 18282531536724003184807357829800037858956059150031862874833282833922388088817, 10722214579090451972027122295669559965751232480303338643506315759787972884777, 13416833136171306878314175856183004520253931713391722921203532053119535142752],
   [0, 10476365323482753859675854914624588169357648163732464294425513856402813671015, 10796085406243518770549041289882041834726357611957763952733147579832769350315, 7461879329145462795868886874361203224040792955937223258684346728326898707855],
   [0, 2030808040014107043269309266800187355562909055572240114581645096298407357475, 7424832396205705615190051659771275130626551066305981487954335728169252774700, 20421695607365273857996444885958083273234213916934689029452059053844706668449]],
  [[1, 0, 0, 0],
   [0, 11286086469596075989232823459569701369801388883107187461284414174593034051858, 10490216165737704191278762205847092059873382919280739791840750049560071608445, 12855165429837233656783587919979315440428733591861250881107845977645735909642],
   [0, 17911719579035256646125730833932402877877728474745245403719838551723695598816, 2265565892613162809951948388976940481568559527963459508758857306346912883390, 18211411952089934015646385099217944756878726064501415091145330256605335981870],
   [0, 19597775619967711153930737661785921323087646376820504336431355785968987851305, 6978995555079957414170663229871775309888325368717225813064031733085157146884, 14287638881332696342339589113143339549874383337136946351323872805375813114364]],
  [[1, 0, 0, 0],
   [0, 8057582960640902255120864049270163527146207372785774594183962136575704729381, 4726939614487951801082954231139936181979422245945825390388002575780172887813, 1250474844918783677006835545919225326563108925389362857561431238000629449475],
   [0, 16146781175110725905094531209747215919418995314969366621993864079412956105995, 3444410104231459105481599231843153260907781382367537148884059736604542749656, 12889082761275630221073775567549981742908086090135662530568123573899302098843],
   [0, 4881057256799810054792854121481115313768118780768883329311098768788585325674, 17488106369652824519746422825357563388975904434126468864809034510561070697221, 11380266025398296846469440467367202337355235313174650588265148092821390681887]],
  [[1, 0, 0, 0],
   [0, 7833530898397194294380838688876780315059467772703733224896842950344899750357, 17068185908634450365693491085156086450423951759502925528141953362922621541229, 916392736077703063623963742894059395886048718691257427717964197102606608623],
   [0, 9316786767241059412450823701845668301598086833930052184091718848054150819528, 7000826116657780473171679353551868255359946175476208141168205599815515432184, 15765314908868383009044061948697113748643034942207988615053080590554098573276],
   [0, 8373815057970965053435997286217239982713555195238640657071286830517017670027, 20606055766998429503812979652921137496521926099738778037531132178037498964856, 6761539960789847209068980396108160641000619203889354282977832498884123161218]],
  [[1, 0, 0, 0],
   [0, 14040771406445240166816967983129897549298104433356231882852649690296195151352, 8617915890190416780108063432670041790003051352620588295895232156643238545170, 17250756129458025200009820243924202296206592781289379408215326530365595016554],
   [0, 2768189159512198228656486570679094026526021223544168231977958495348606561406, 21268177434941063793542183605190292083013568318541932250701144435310499033351, 5363580519025093366831745865059609839040956228097984737003841398893705100986],
   [0, 13083272219593538427872806253421067524647919390905769514472928485588888147128, 19771322814105260860715017819671047963956468661066751349323891633549006439619, 13562134177463246199548511435230015597490860510534464046506148871539567291503]],
  [[1, 0, 0, 0],
   [0, 18635236079626684025503147945319999038402069976456199765301099295710624573361, 10501924407396572675035315753609405312444640107955333668277217162281916073875, 19400323910255356591624980554280812603393080909876255020109392692044310839487],
   [0, 1954183333300635866874444263048247034052479214866369746886089632554462366913, 8007141215949154814412794029701427839395222948707211758498706731317487771264, 8706047361929426573405540064084725638507272648496528745740891899770266369264],
   [0, 14703869047878694019206185927296591489695706350841512893725146620310323038078, 5467563103257320482020968869197763904992092463306109491164994706496117745633, 13917738440344702618703544091175991004699632527578910654050133201480905813657]],
  [[1, 0, 0, 0],
   [0, 67890162747755613504181041616813718903840814501074154531643886320076137554, 12980224974212617807023093909743238443034773478050447913117664978188179400389, 10466342664522069885275444145614592989156345466294406039777955203923076309734],
   [0, 13872368951615906464870944287007005857466920064826800854278248242521953717540, 12836586051934278217753943061320506214532031328612633059473505621618199415612, 7035385629083867176911135966427687154679380793498499156988355100649655790756],
   [0, 18763620118181821691245859298968787662297205551136348715961762373409473629413, 14055761756095376192055410215183322239660549070159806763357095071497547518037, 12865722215484210659356660429895494776687423681608260049939499736939764371992]],
  [[1, 0, 0, 0],
   [0, 5315797610624783295173684339906720874198158094213912401402432058784478687240, 4394553934232686405107533855135293731125559198761617176022465934231188577768, 1778554730418862725059205754161526618222036718429525025310574309112377198850],
   [0, 5825549269836322795546601606243817119472097105256092811063943129705842750606, 7767457743520213827442592245218492240885380317609983099395273713208814464829, 18043449645266051543590169292941688146631023452321200812424522778931408861328],
   [0, 17653343146253777126445962178692813735502579247045086784412672943271380275744, 8114475009101094849128268870681297663738402409636392612956958540022361779250, 4019546807545630648709736298944252575005674010978336604066329544366653937832]],
  [[1, 0, 0, 0],
   [0, 21715514716920438790199555644795065563238104400381525262224539246443853133843, 4776253451523707342905809012072362300040374838952210614978750270497316038295, 8316513271605743001181719384824710693825877252069415695101548086002030274855],
   [0, 1026155953356245709849635594165442487156787625840394727190496064735926128189, 14979154598785754637845700363603379287504445074535149346322260337234647624101, 5700077777145880843152293558930577265762510600054117788202476144396407958124],
   [0, 18500868733951533340971065691093611645637294856936598720362204783080164114553, 10207790907472995881395115701847582371051468317977836901443522650197534985491, 15676685889934302031562916064203912091259422187096037353912710219965394677627]],
  [[1, 0, 0, 0],
   [0, 20093293061719086124836870840172891488415829252659984772458376370769918436938, 2922283805607819328153760491561495136198054399155667624547508856363851769653, 1894178444654308158896120091213372466016057496331317153492145812470319722960],
   [0, 7751526204354090253080389089423366886046043062405933819955482003493154536234, 21430928861518360240020255575149142294036133692817076967752644806543482804313, 7743532791929214470216528855532807659590476346949766801959037302861268836080],
   [0, 9601302591566284300395161875122582484604670749249307461513419738450297942837, 18075855969656226454548226471468219591025542951135511586026610431861397435676, 17695436692246262277691113274751219336921339108754960700295338367606470055135]],
  [[1, 0, 0, 0],
   [0, 12909409055855077551492992250568949812244184271735612132420643921861785058725, 17488876704271242758876579695711448664630630049441635147972227725831594036238, 6728418896817012457831884035463463573934849546318435345593518847534537284278],
   [0, 16398118308519349799604026862468223896777951526396423024370419194761013031307, 17813279275226945803729794935707248596442508289094497502891021545061945439118, 4161029361936512977870025406500121162611093309891852967563919041080681922126],
   [0, 3954477442126814255917524165128997513368558001764689356964993505157356883443, 6847766331677840043152082653939643502186603273662249285753981201876976639120, 3946585012529049942588491188037927486142889337861681385930056591622384030015]],
  [[1, 0, 0, 0],
   [0, 3722304780857845144568029505892077496425786544014166938942516810831732569870, 11920634922168932145084219049241528148129057802067880076377897257847125830511, 6085682566123812000257211683010755099394491689511511633947011263229442977967],
   [0, 20850178060552184587113773087797340350525370429749200838012809627359404457643, 7082289538076771741936674361200789891432311337766695368327626572220036527624, 1787876543469562003404632310460227730887431311758627706450615128255538398187],
   [0, 16058955581309173858487265533260133430557379878452348481750737813742488209262, 593311177550138061601452020934455734040559402531605836278498327468203888086, 341662423637860635938968460722645910313598807845686354625820505885069260074]],
  [[1, 0, 0, 0],
   [0, 1, 0, 0],
   [0, 0, 1, 0],
   [0, 0, 0, 1]]]

/-- Offset before partial round `i`. -/
def auxD : List (List Nat) := [
  [0,
   3229875628485015309164456860825952307238244188055275500527906788200403285864,
   8974859605890850381256244338817706653560906047263335097095383933865377127823,
   18907352336605594256394893782160334799549621631121437963469665379525371834398],
  [0,
   21683105132890545499580836628931949225263960113123372199202490671660512598073,
   1796241194720386464028342539924721710340481901880484437860903843743483328450,
   4336494631026577098559335694160401780088182344422155009477628272351177759096],
  [0,
   3046334612299763105089241948106766136083989484980652065582262878170648963987,
   12434849995949140047030384059012171826404181968664867976103699390000992618026,
   7290754333855319350543955418287204757442494655525487192306902754391839639266],
  [0,
   3875180692909911770095916392417085536251824678019732324454968394041695583397,
   13184815797391243508654399737191143707324393895372732536128451147497670381520,
   13045959347583897561204169959220613330075962742853254549348229836045146697002],
  [0,
   4289827821330780291756973174500358231568766796219371830447582394315687875897,
   12030587531237290866678886892629412120287392465628916213791518941434835195204,
   3780930467249758545978485276006771335943139725518563997761867408351646607885],
  [0,
   5721272599214929018341648882172554553672946204091769810465421323018592989747,
   3026150726461147414357115216120951870976960244927198047740797139962899357293,
   10105957273284107974790378751129911181771936036298872156123506277213179585232],
  [0,
   9144776996272646489811747783385135162951667033842833529754808319156576744634,
   20656325503237294671020722728426760682920563838498477824176851685466281737411,
   19575287901258974781369519436626767148330949177598615600645074874588976473193],
  [0,
   19464669293467355456592640277103969726696563255392034290480325320437877885549,
   9214199777197901524472064270954270719451208262781570951269395078683201038241,
   6321638838139350355218032443241033290330851115515999852276792843083371140184],
  [0,
   17317554892573828797941727109787832946635201136034425331285148125957841291451,
   7554345593642298824190897472817963710222940971250725279371757752729011409597,
   1209261983915592729615610283597669715936598418246130194252935642127853021195],
  [0,
   216119561802170599718658043168132046384587803563239391269122838529267211754,
   6537773050798960213175242979276533756015884320686452553663801328264666133020,
   16944708961695792484123681336786427559575177594071052686987017471559331699449],
  [0,
   1708650618907865274980997156979382511123134045460952074290491402095023794684,
   3390875079830055415662422886044390189021456222098135106671452670894385881614,
   19726198752911626188018173083077521062141757029549868721379096897707368178129],
  [0,
   17592337598082064897805380221397833913315291321069238284643514088109001792546,
   16738523172506418600709376066356984492087531679015816071790978578993754223206,
   18792828455125121511219049846860967669014422406737610763357971034943978205136],
  [0,
   1774883744593277810167674878994397741111144055828580840587122989651543613614,
   17600324439571475011395911955617876937992275718170711293357162558560000069183,
   8073232616402504859317111314252550011863915330587619686657549107964333767630],
  [0,
   10894510139506013109549430042164540045968699636639047075004937601090642376847,
   12566813374404449283722882919519479971278275245288517072192133240843606904966,
   7694332052044932407583301417378841181912836122878903085987730999646417880503],
  [0,
   13066912974521463483894812911099646152704554961781381106801011861820378334996,
   13344782026378062323458465807863382969878338949574685560544775019936714757020,
   12957556269641963716229496312137566883469913509425225317834443074058173227423],
  [0,
   18982052201007351006142133655758244970452419997208068608046983317719699878761,
   3624376521605608788993819680347231747828360080696715730111811267830655172220,
   17738481249651596468805674870167638857889662477695208471645883423169673519144],
  [0,
   16731473633266209332556720204475831546148339852141492314905401769844311645563,
   13029575457616648934405500007355115520847951370150204856889555235448462453784,
   1046748941224433758852477408117266449769672824803051717219907474857563063914],
  [0,
   14991558779125341169680664055009614665326797015196123430970541032631171151386,
   1448033418975294978119111851096140815865786723375518041056988766909314236268,
   6303360522574290902367504170453268527009316661646605620137622198350485226611],
  [0,
   11032666818943033781169354336857470543197073816341407777663515112978862352289,
   2970392092731517017608073305932912215013940442416798292953346680985156228801,
   20095592928457980466808528000340853181590572427331012173624228310431541423994],
  [0,
   16108129524386572491802384784733859453566038553331819283830457920315380950597,
   10913350041680890226223540481413015795248207187982100379992306726830831980413,
   1144772768750356993862827516952041658448304819095295227797976979576005587785],
  [0,
   11397111649814979132354939884802106197014618242001756773290383851576764251873,
   3569508795369686085069316862156559994373245752991538598951473153516791883733,
   1360338850092523392019515757167423613077388966533077420264697742637900503847],
  [0,
   955376831769069894745937272689905788167873215722016795679897395105916077751,
   12070427194008121606068214242090246533854693280506890078920056628297663465663,
   21535648235499011988367024757148976671252710739190490051631806118645019117114],
  [0,
   5412462440418541652983514879584630658126576129474776432313921176945320383386,
   12297437576480091358306279175005614895008310291500213774356086986327426504660,
   3998686978234775530340584528703681377358047613396238860970195436232152046187],
  [0,
   7958024470616869868078307472267181361428439880776580416052168905181943959834,
   11499886120393600291401947850724846657997594875531375053891587083253197258413,
   8248549656791039786861611080460761447691105079630370281305123585039263841565],
  [0,
   18989286754519184860991818905595416398131576328658049752751106682707671322100,
   11401670013737647027443470092039012960862551717546979754050619740245164483410,
   6503372972044812468187404304546420516470074859790686197975244781377342232349],
  [0,
   2316663282751616039989231404561280892920910513389037407965288598884636134450,
   7465042954675884655109287920739766690611077946953549710836584608864072359474,
   20444125465863179095324288258606317100372123231354074805557981637968030446304],
  [0,
   8004934130570310118452450107305193358015682133008032826051676099173475689778,
   15731960653180383246427549500183602276173513770314609015436829835071446451202,
   16354532370723489595831903904829222631890101479731342554167640123574848379133],
  [0,
   6310401414926475484290597622906879592690125061499042965045266019855983103730,
   13195811842577117371559774078100271292378905259708239432010169305830096921807,
   10935414045721953737656167645691682167641434752347303675900869611031798010518],
  [0,
   17506393627683606068634034461618511845748925936250002415562660943884142223560,
   797840862741343559156156794784388411782213359381303617973758853596927156220,
   8779351491069743706629128519169669477765572916702045599771931271612589381358],
  [0,
   14022195779313159112236286315106672950759150597358464788408575934732199203755,
   11783267721004666679585005752233024346763915297829816306308975260281518144162,
   13110427101138885058492331239530618050818900662432455912961256860169830077398],
  [0,
   19784260928989848101185813816092589148715807086435078973344726981655453568542,
   1608345177455711484208611848881954081736859707782298959797136167626685370832,
   12325900883022998634559428665935448324500368132740237297733956636545635897518],
  [0,
   3874968268657530735201742038653372648633057084529396523093212646366526837899,
   18228459429551926995510299122428456298071217606952222584429672697866273111404,
   4856212149203127424094555689307033220259275990766419574339696837232826082317],
  [0,
   11169493304289641795840712213318629769106087555730893865408353987676654248910,
   8565936200140612953925541915976165227691607171240476225397233570792453404535,
   11592521379687622285849165245743882498335898399887151334435424408782451796387],
  [0,
   4231295991127718704281390916201696195291339870584079846443466355740496267927,
   7375969713329337898208443113265925857541736361119431945622559616671247461406,
   20096934941704321478922234112476784815488455482331803327773358576968863930800],
  [0,
   12175387665457562430532359412245014768900640089781448954190203069140980281346,
   2454117348732150694157582026277211907052874120130562375438840351216683798940,
   12724661877460465187459217498083028132961481716124987326251099250514046305181],
  [0,
   15490349733071283764255240351386022960688747288122228919313292400367116960831,
   17534483038138449108630413291372280606278548711779165489290257468686143681407,
   18597757945882341744940047113177929871344741867647145218598431708617121483253],
  [0,
   15079229666330889377552657304435675472847038404237807682823651426806643393391,
   4746842541849526786407430432393695984078271128770726400086384536168184435569,
   9740701301186412163399303718429072848724778549553866887934526028113552725133],
  [0,
   12608300339567181993631044940841034126418212292973930950909561332299047433185,
   18880650928592820840638457698457766897456200853474671917234695618619001711371,
   13522577437544129936860846133088962189817769949797144356014229238628155821379],
  [0,
   19885407564362964980416854039917509000828907516806312364245033712079955946064,
   9599492378027233156088053991041980650274881810289997171299564801857005301964,
   6986534723459003082081275219740084195440682350901738354626216063867990157558],
  [0,
   1279299134052034277519645537267250639755090199354212365415005944836066421946,
   4930376449945147086395867460114572730254350166199526456859784555182860200227,
   48644407650186091248846701324333210464963887000287829456487056219170253199],
  [0,
   2572433736634194239199995267167257576723137418957051987876866236610439539375,
   14224908377585109368396810014743521932227345329521206182815746130705744718080,
   8967711184201361870420162571259605978367595181034214170002418101477665630023],
  [0,
   15221098953788417239422572439299830679679773284172095500834435778463085302447,
   21475896027166508680354176902246265912158915741954724119903088077452317570246,
   14768764394893300576925775227766053580724515601372679598485430187028775391959],
  [0,
   16636967241988079339964317225695941803340578752068154449235170666890522767817,
   10657946136706634233105158915770808362209111017290210139030814937170216239555,
   16956545646931689423973942866376497876289564800774908970271644070531658241794],
  [0,
   736652791208598784482414376974776393858770509250758532644192012606548207097,
   5702977810443046666071742965775111832505156564768037923315301197426017039919,
   8526242444375249033559670791173991914295041928459034979819065548726585459509],
  [0,
   260969154108529897273716134901735770484850974952473057745749923491889139530,
   9406645805214050728852142974599734775273969603353997579188426227872946146309,
   15143054452200119059167237052406576326187855238564091910113388440527463529990],
  [0,
   2220774570846856700731563681097893854507699464337660923429765475598385666043,
   15955269176260109378196778587205791804029200018646082098704925971893603431118,
   1469688958697353719748979947899413877596531184672810765971001658920069044630],
  [0,
   13896534849012568093403321088094042353140823815059742852686907862137452362878,
   18216827618518829354491768599288180116657383880433636540527129494471775514756,
   11140524443171075214382800362434069034238067887384437665447173674641609650472],
  [0,
   2442027649272862692037480508364924495385724968390821607653670886051202261184,
   8946611831577702299754475278230923381688348623926974443870620183566513720038,
   1751846199484553041983788009664876055797911658635523601840989820045356439710],
  [0,
   18570467562305828788426682583146865313768835697297406115148666461348253864890,
   5210540115041558351720540922329833952483791954571444683678405386892233669822,
   18459829404075839048353309074478172892958848426406091609235951969506722487500],
  [0,
   7877260644368241646196619124577184989089435745234654073639430114690133234406,
   9229080031469128628631794376954743922005184484253133996790288302267991380350,
   1987006625247480514251522170239819039584285991717770595871721177547917394056],
  [0,
   14227078006060809094367497602835478397560736410625788487975254432648848055797,
   14062562277353974459926279940231297770357787830350976673934289882073386066826,
   19275805908198425597840075420362872905938576557586134517352914926936818074404],
  [0,
   4530350576181147899321283055223539058149696479317165718556637055785422411620,
   11941383591370077742908587653918658246204225312394531523975029180486929704453,
   15307416378436295223573692999040687301040428998479136143000864466405963451038],
  [0,
   16061683703204934662508419477097183133993143547299318212394976961066538359321,
   10732259846447852234607582844832706120253025328815346807341770236979486257498,
   3803801518486603904355763080419260144964642307780113239860402179121631047974],
  [0,
   3791673920251920987046172288816679290735991307781388629009247802057004157923,
   7665324836944773489306458508978101058504971988164659052453364085803277182538,
   6324716387695103334883181156942676918296431980318185160804174603746895995073],
  [0,
   16374811281313548980524740287857897958038146629307645086960197104465435523092,
   31176357847982411693274657583465152967604186107781729193024565080222648122,
   8382855839809442408050101814160039014943152151957176412792586077824640002543],
  [0,
   11032499529127863295089891233566391970324898515427134019896885237223395762435,
   21553998824075459925550707832624920049484590321557672860339079743396912100165,
   5080875050630049105005336295605426271763558916714993172921310428037418518690],
  [0,
   0,
   0,
   0]]

/-- Per drawn word: LFSR register before, number of bit pairs consumed, value. -/
def grainCerts : List (Nat × Nat × Nat) := [
  (1123180871761023156368079, 496, 11633431549750490989983886834189948010834808234699737327785600195936805266405),
  (1046589816303428653167663, 508, 17353750182810071758476407404624088842693631054828301270920107619055744005334),
  (580223404112721317971463, 524, 11575173631114898451293296430061690731976535592475236587664058405912382527658),
  (507792306583826552787689, 488, 25074482721947501781536521118007957185729440719695695479843514186009557257247),
  (1127154692600178931638187, 514, 9724643380371653925020965751082872123058642683375812487991079305063678725624),
  (326769078437578991116636, 522, 20936725237749945635418633443468987188819556232926135747685274666391889856770),
  (536662070019332023568412, 559, 6427758822462294912934022562310355233516927282963039741999349770315205779230),
  (543898256001265351193812, 545, 16782979953202249973699352594809882974187694538612412531558950864304931387798),
  (353817311916660480432730, 513, 8979171037234948998646722737761679613767384188475887657669871981433930833742),
  (357427759008919802020722, 492, 28815593876444290885996017456283548704648041096855756578621562135022978789539),
  (970614532012724411153137, 487, 5428827536651017352121626533783677797977876323745420084354839999137145767736),
  (309168263301423985864077, 489, 507241738797493565802569310165979445570507129759637903167193063764556368390),
  (453415354751922595345119, 523, 6711578168107599474498163409443059675558516582274824463959700553865920673097),
  (1011441977132386494579772, 567, 2197359304646916921018958991647650011119043556688567376178243393652789311643),
  (1108940280244065063024547, 509, 28921075497708748148002417632112220365924650961131786478038814742113600165423),
  (1184094778936413536239959, 474, 4634703622846121403803831560584049007806112989824652272428991253572845447400),
  (305022387495743754671948, 546, 17008376818199175111793852447685303011746023680921106348278379453039148937791),
  (1147170445702776517764176, 470, 18430784755956196942937899353653692286521408688385681805132578732731487278753),
  (985222475918939811292433, 533, 27447999866129899989729459881909518210018183393083245127804549085970529552464),
  (427865345553671398795013, 486, 24060709173999331423312376046764829747352555944073285173217098644960918829719),
  (1131360033188184258639558, 471, 22003420065016446637832603025929514557039574780926771600424364717534619299763),
  (1164785895216387425748200, 529, 4573768376486344895797915946239137669624900197544620153250805961657870918727),
  (964193239882286389676623, 514, 5624865188680173294191042415227598609140934495743721047183803859030618890703),
  (1129483957933235674436568, 521, 23680032200425749476691117527815941765898273025394212375532460950717384339574),
  (374469639593452316521436, 495, 23443862582942332629215527112506810987892071517053566394218403370050478705782),
  (356591380396719498028611, 497, 22591247733459255777011346662239845684775681289008957295268390740877363694605),
  (999839543998452605256196, 495, 8228252753786907198149068514193371173033070694924002912950645971088002709521),
  (1081499252545235286691619, 515, 22492377298143874736630493635807576975918595609586914883879339413966397621348),
  (488931437246228088749645, 529, 17586714789554691446538331362711502394998837215506284064347036653995353304693),
  (938883575111749491358642, 500, 12985198716830497423350597750558817467658937953000235442251074063454897365701),
  (1063521428652240943092433, 515, 13480076116139680784838493959937969792577589073830107110893279354229821035984),
  (479679867689634320620676, 467, 480609231761423388761863647137314056373740727639536352979673303078459561332),
  (304329733610923463022292, 513, 19503345496799249258956440299354839375920540225688429628121751361906635419276),
  (339233938090640830689110, 485, 16837818502122887883669221005435922946567532037624537243846974433811447595173),
  (915388161601640349807039, 493, 5492108497278641078569490709794391352213168666744080628008171695469579703581),
  (1103839421149469048651002, 511, 23199916096013343125409404063305680279364700109123168792857806829042113282730),
  (507275838346166759187944, 519, 11365311159988448419785032079155356000691294261495515880484003277443744617083),
  (907713323563974779201475, 467, 13876891705632851072613751905778242936713392247975808888614530203269491723653),
  (1104248576721362882167234, 491, 10660388389107698747692475159023710744797290186015856503629656779989214850043),
  (1123941883780593138413885, 454, 22370064724222753572091740483121937388367643136086907822496408775511386438370),
  (363954099626725503797089, 479, 26994066639653651565466688704413524475079365705885568444422805446649206761208),
  (330541505183325308808180, 501, 18876318870401623474401728758498150977988613254023317877612912724282285739292),
  (456334441741188264323183, 468, 15543349138237018307536452195922365893694804703361435879256942490123776892424),
  (426845090288120360304222, 514, 26249808535239132830594333698299658679152001908101217877494940129562047333467),
  (1124600619537915738987473, 510, 2839988449157209999638903652853828318645773519300826410959678570041742458201),
  (990737905374039467310889, 493, 7566039810305694135184226097163626060317478635973510706368412858136696413063),
  (1126346959606577901783350, 486, 25613797801260771616020496183095813985491147909938620234370632769402168138712),
  (492642221423965192044524, 521, 6344830340705033582410486810600848473125256338903726340728639711688240744220),
  (336097462987753159568238, 492, 12475357769019880256619207099578191648078162511547701737481203260317463892731),
  (1164252146032809458722653, 469, 13337401254840718303633782478677852514218549070508887338718446132574012311307),
  (968284953410878541137053, 472, 25841790776441915893471947996829353408278840089546764907842928688578759774738),
  (572149787543453661828155, 488, 27076679711033133969880365623368490346846064622492393228615847104605687651541),
  (1037086398345059268430602, 547, 28637241122886492109090927005528029193833436746743240322951072709352004572505),
  (1097216794622256947994720, 578, 21161869193849404954234950798647336336709035097706159414187214758702055364571),
  (920182969656592677695027, 530, 20671052961616073313397254362345395594858011165315285344464242404604146448678),
  (513019524888837749934154, 513, 27350700229757234829625300516404472731134847554697934198352729217696295202212),
  (336603453287526865596275, 545, 2772189387845778213446441819361180378678387127454165972767013098872140927416),
  (321705033340670530854641, 500, 3339032002224218054945450150550795352855387702520990006196627537441898997147),
  (1123721390775813191451534, 509, 14919705931281848425960108279746818433850049439186607267862213649460469542157),
  (943017342544474290142106, 484, 23813557043768343626366715747543410171733920934308962891753106813874535455807),
  (1184114203791240401066293, 521, 17056699976793486403099510941807022658662936611123286147276760381688934087770),
  (457456852181896818502307, 513, 23389659142960191745651378840476166439501536118865133069260325928848217741574),
  (315188429707023098292405, 478, 16144580075268719403964467603213740327573316872987042261854346306108421013323),
  (964765994570490519475260, 526, 15582343953927413680541644067712456296539774919658221087452235772880573393376),
  (389152944237223991544747, 529, 17528510080741946423534916423363640132610906812668323263058626230135522155749),
  (1077740065393846716102341, 524, 3190600034239022251529646836642735752388641846393941612827022280601486805721),
  (1021270429168511527186477, 487, 23654245692028909683515424672663383638257992490620645704721475544949905182990),
  (376706947819382821944092, 483, 8463814172152682468446984305780323150741498069701538916468821815030498611418),
  (466231043342727498929920, 503, 16533435971270903741871235576178437313873873358463959658178441562520661055273),
  (1017488264340558230259519, 489, 11845696835505436397913764735273748291716405946246049903478361223369666046634),
  (561511858841528601917535, 519, 28162521008896911569786523057187118139795809055425564118255212942113666494159),
  (1205495799237042113272531, 487, 18391057370973634202531308463652130631065370546571735004701144829951670507215),
  (1204688795734516629039291, 508, 262537877325812689820791215463881982531707709719292538608229687240243203710),
  (357717899724251086221060, 487, 2187234489894387585309965540987639130975753519805550941279098789852422770021),
  (1040598869286831065572050, 464, 19189656350920455659006418422409390013967064310525314160026356916172976152967),
  (1196358591375561594896079, 516, 15839474183930359560478122372067744245080413846070743460407578046890458719219),
  (1161680196783203487800335, 469, 1805019124769763805045852541831585930225376844141668951787801647576910524592),
  (459996315063521375697275, 438, 323592203814803486950280155834638828455175703393817797003361354810251742052),
  (432122044889127144293148, 511, 9780393509796825017346015868945480913627956475147371732521398519483580624282),
  (494451024144866113506002, 515, 14009429785059642386335012561867511048847749030947687313594053997432177705759),
  (1205007202944524010346323, 487, 13749550162460745037234826077137388777330401847577727796245150843898019635981),
  (1032665330346012803382901, 490, 19497187499283431845443758879472819384797584633472792651343926414232528405311),
  (967840442249884065510889, 510, 3708428802547661961864524194762556064568867603968214870300574294082023305587),
  (1072056736977597253238230, 548, 1339414413482882567499652761996854155383863472782829777976929310155400981782),
  (374434908608107639768958, 502, 6396261245879814100794661157306877072718690153118140891315137894471052482309),
  (1044318902360352335076540, 494, 27664818913445873032808678097918626850665645842491503464265051819662706142400),
  (403163229008411740535809, 502, 2069661495404347929962833138824526893650803079024564477269192079629046031674),
  (355577943643558946912362, 530, 15793521554502133342917616035884588152451122589545915605459159078589855944361),
  (1077193657271280805484543, 505, 17053424498357819626596285492499512504457128907932827007302385782133229252374),
  (317303408567300407547687, 498, 13658536470391360399708067455536748955260723760813498481671323619545320978896),
  (461103239636054962777906, 513, 21546095668130239633971575351786704948662094117932406102037724221634677838565),
  (1044155930477194537767182, 508, 21411726238386979516934941789127061362496195649331822900487557574597304399109),
  (1045118845706658550007729, 515, 1944776378988765673004063363506638781964264107780425928778257145151172817981),
  (914955090466343999048053, 501, 15590719714223718537172639598316570285163081746016049278954513732528516468773),
  (992630838438333228570352, 523, 1351266421179051765004709939353170430290500926943038391678843253157009556309),
  (1089517414303374137173082, 521, 23373176975589296314129217374136241479460480240818948348150662551722203406370),
  (533943536443297609982078, 520, 6772476224477167317130064764757502335545080109882028900432703947986275397548),
  (450824581204778287583876, 506, 10670120969725161535937685539136065944959698664551200616467222887025111751992),
  (340497067876803064504109, 457, 4731853626374224678749618809759140702342195350742653173378450474772131006181),
  (953176379131628312917947, 534, 14473527495914528513885847341981310373531349450901830749157165104135412062812),
  (458267624919429467770956, 491, 16937191362061486658876740597821783333355021670608822932942683228741190786143),
  (977138493017604412647425, 509, 5656559696428674390125424316117443507583679061659043998559560535270557939546),
  (578615358666432074803442, 532, 28490133502294637403222045825941922061401238773697796154701570090780376437441),
  (1032299753427743484565541, 494, 8897648276515725841133578021896617755369443750194849587616503841335248902806),
  (374904002302783254620635, 510, 14938684446722672719637788054570691068799510611164812175626676768545923371470),
  (601289310195223566769672, 510, 23204923492163618290876494214660677576740689723884766877421323809370332708169),
  (993732866600408095161866, 495, 15284149043690546115252102390417391226617211133644099356880071475803043461465),
  (1069170419040882004262725, 530, 2623479025068612775740107497276979457946709347831661908218182874823658838107),
  (1153346969413377883043473, 529, 6809791961761836061129379546794905411734858375517368211894790874813684813988),
  (313849493643158602461596, 546, 2417620338751920563196799065781703780495622795713803712576790485412779971775),
  (1060444167348910007004725, 524, 4445143310792944321746901285176579692343442786777464604312772017806735512661),
  (942002140385221664589996, 543, 1429019233589939118995503267516676481141938536269008901607126781291273208629),
  (1043701372418034876195324, 512, 19874283200702583165110559932895904979843482162236139561356679724680604144459),
  (922951391300339229108044, 538, 13426632171723830006915194799390005513190035492503509233177687891041405113055),
  (948822363304460508571842, 489, 10582332261829184460912611488470654685922576576939233092337240630493625631748),
  (489153826292620839478812, 498, 21233753931561918964692715735079738969202507286592442257083521969358109931739),
  (1169814545241076393638800, 488, 15570526832729960536088203016939646235070527502823725736220985057263010426410),
  (355424749859895012422608, 509, 9379993197409194016084018867205217180276068758980710078281820842068357746159),
  (1190835273433670695599568, 463, 20771047769547788232530761122022227554484215799917531852224053856574439035591),
  (1196431855919939746149768, 508, 20468066117407230615347036860121267564735050776924839007390915936603720868039),
  (1196710508773552411945705, 466, 22976972560130398930434110152865468813139769707235298778790706635213397580373),
  (1041122557091045106464224, 473, 5488458379783632930817704196671117722181776789793038046303454621235628350505),
  (990639750782940920540601, 505, 1394272944960494549436156060041871735938329188644910029274839018389507786995),
  (922557670044845780461538, 485, 5147716541319265558364686380685869814344975511061045836883803841066664401308),
  (382464479104408997546058, 546, 14583556014436264794011679557180458872925270147116325433110111823036572987256),
  (477713958277036804328258, 504, 27121916476624354032036828928863634041784559156204344707469973251264285727481),
  (1025708064024206236657989, 523, 27213303876366544038183313035509820845587711363124296608677107521965506279553),
  (1011202766094030843078915, 513, 11881598145635709076820802010238799308467020773223027240974808290357539410246),
  (522807064850870019753882, 479, 1566675577370566803714158020143436746360531503329117352692311127363508063658),
  (531791293764040828836375, 535, 212097210828847555076368799807292486212366234848453077606919035866276438405),
  (929726951972005343484091, 490, 7447795983723838393344606913699113402588250391491430720006009618589586043349),
  (1065919450737622243736864, 469, 7626475329478847982857743246276194948757851985510858890691733676098590062312),
  (481071987073457728371765, 504, 27386811436903125008630876435219695056072116876868680735121117902891279610893),
  (1104906504693910270474743, 501, 148936322117705719734052984176402258788283488576388928671173547788498414614),
  (362056215249921982959348, 530, 15456385653678559339152734484033356164266089951521103188900320352052358038156),
  (307854912356839861103055, 503, 26199236587557171104894191117125074974036449926306828562041699606541214267768),
  (427125203822550587793534, 497, 18207029603568083031075933940507782729612798852390383193518574746240484434885),
  (942150783101534903346992, 471, 2783356767974552799246444090988849933848968900471538294757665724820698962027),
  (1072484208403807392401365, 476, 2721136724873145834448711197875719736776242904173494370334510875996324906822),
  (590912962234673895399227, 514, 2101139679159828164567502977338446902934095964116292264803779234163802308621),
  (985720884591157923173938, 526, 8995221857405946029753863203034191016106353727035116779995228902499254557482),
  (352735379599569887885210, 509, 25663862372347669574786499097017631225100638695917964742137745752518015745436),
  (462362059535298708090888, 465, 502050382895618998241481591846956281507455925731652006822624065608151015665),
  (1006787171800653402069248, 503, 4998642074447347292230083981705092465562944918178587362047610976950173759150),
  (580642752685379481886126, 490, 9349925422548495396957991080641322437286312278286826683803695584372829655908),
  (439929389328087673469982, 508, 28287886475541120761093603735828752366193442398125704107446376463059897505126),
  (582800626070284027098817, 524, 11780347248050333407713097022607360765169543706092266937432199545936788840710),
  (581298703854715460595619, 466, 17875657248128792902343900636176628524337469245418171053476833541334867949063),
  (1195540709002484992226591, 487, 10366707960411170224546487410133378396211437543372531210718212258701730218585),
  (1017722839279518336884710, 495, 26329036318586292464385894156088647856831608613050247562540909396615438740090),
  (511935089240372774484505, 519, 16918708725327525329474486073529093971911689155838787615544405646587858805834),
  (551419882292754648212925, 489, 18845394288827839099791436411179859406694814287249240544635770075956540806104),
  (503371356625554672743332, 555, 22610626097875814979001994304309477047432611678342212421666959608266067735041),
  (1082997118919509193615868, 508, 9838806160073701591447223014625214979004281138811495046618998465898136914308),
  (324447287554490186906892, 501, 10285680425916086863571101560978592912547567902925573205991454216988033815759),
  (1128897444229846164416897, 512, 24554262089187794307839504274115297636287494156034132071313927346896646995756),
  (499018828840110969417424, 524, 28827148553415967927475611793008572339387187103753995801898322210833028620993),
  (1084174143750550214406642, 511, 1292119286233210185026381033809498665433650491423040630240164455269575958565),
  (1039341827047106048050512, 520, 2665524343601461489082054230426835550060387413710679950970616347092017688857),
  (937341045000343096062736, 507, 25299114480160688507499144781306614828075811535668356758799462558431805124388),
  (435986495410953653437198, 484, 13502286133892103192305476866434484921895765252706158317341618311553476426306),
  (365419503137183717340287, 513, 686854655578191041672292972738875170071982317195092845673566320025160026512),
  (332472505197697897388556, 493, 9315942923163981372372434957632152754092082859001311184186702151150554806508),
  (392746378792470664625010, 482, 24614293824085229162746463995188238402654908423094234929948635830053857623993),
  (984597769832353954831262, 541, 17166793131238158480636170455452575971861309825745828685724097210995239015581),
  (914602412711249959241891, 483, 4443784618760852757287735236046535266034706880634443644576653970979377878608),
  (479929933120835641317117, 474, 25719976130580557649480134518803535779112061106618673440526566236225931422853),
  (1077665253109101705910485, 482, 21470445782021672615018345703580059646973568891521510437236903770708690160080),
  (421738640042537248424446, 496, 6932852445473908850835611723958058203645654625170962537129706393570586565567),
  (977289044238778693713023, 537, 28619957419740120812121976285452062119203802311503216121339699245371839248564),
  (302368909502943324116671, 524, 17078326120157725640173982185667969009350208542843294226397809921509565607842),
  (522513280199171085130939, 536, 26006076789682369695766505976806650727735336190053919243699280899023613770232),
  (331095971301590528875354, 494, 19251873001736801921864956728611772738233338338726553113352118847732921831266),
  (573216302325543121572058, 480, 28399877362868556960004304223853729939245991166431844780327806165374551396262),
  (582512336772516525240196, 462, 13062907978694932362695258750558734366820802962383346229947907261606619788585),
  (993840911842225100530718, 500, 16576609187793673559170206379939616900133457644695219057683704871664434872406),
  (541726931761895690412664, 494, 27134383599856884458434209001415642977436529714721170299345736896852258258368),
  (472632332787583104904452, 484, 17140499059660867342372156843620845644831519603574612796639429147195776838516),
  (499057309190384698252116, 512, 16226688173010504218547945848523900236290532501559570164276462499487632388445),
  (1092008600803101551774643, 556, 2806068123803905806401128967330263340459046260107112845068533446899070326517),
  (995101758969247018398332, 526, 26115770177549293439722108187705034115310232897500200866124427022430743345227),
  (1135762582380040395737752, 544, 17788735370835052317224182711467216134690146479710634688273650370951230404901),
  (1046508893420035038447819, 483, 9840665370904113434661468973557421114403401847108482949465899631150766783733),
  (1048013549758656511498180, 520, 25563646500079594041828696860898497263699792764334823836426114691860973804664),
  (502254047989168955254084, 503, 17357287363046228581837055771327121704742940914150998420465281177406182088510),
  (589056772072293060198391, 511, 25082316994243142970792321486975349451497442479314729156812900004392478694315),
  (1125304273325738812023609, 505, 8956082469997974864521346025916496675956939495318858500685756691488425559998),
  (585331315760176775791416, 508, 10583741436561099911914917245130852199607666337956354910388730829023746895549),
  (915915982089587665640228, 488, 21948628706754286795331526240443025440083684219343042260254968019031336979250),
  (510210729584961003722778, 521, 15241902639811607164983030447109332729761435946009172128089506810551693978973),
  (1048433414264016996330127, 480, 10889882303914055687481932975789161945462141459528413507160087442461090813788),
  (452719792018805623093990, 533, 22058337289816879225462147030511026998819031947286138131735378947599468968894),
  (597437217197638755478352, 537, 19789561133254944544821898921133697408237804586549835559829396563401674817160),
  (413545868494052963021356, 487, 20741336668287037026472434608739333171202674306575625457456116338034432647230),
  (525220117154031104093567, 503, 17864073449995977742930566850933082711031717858550870842712972350665650521079),
  (1145830158043079130542478, 505, 27796667657118484790569329926538918752929676792029028238275650842513824156861),
  (1021209113496493877322862, 516, 6017691253505466300212182439349954426085752315661098358839308909771637792741),
  (995268349723658016854495, 453, 5209125836207196173669497054522582922896061838702136844305036341250990710540),
  (310551679997007675814959, 509, 8138726312837322624537330169363664364899441867118983214176695868443641051381),
  (1106965206731611614289224, 480, 15491983986041746833254372934846748393213690608865689646440909282144232382678),
  (583995613470288109192108, 559, 5054332867608171303802774230688792431028169804536607979111644888500809938980),
  (419136403577713275587851, 520, 23840088143933171750567800612694544372455567129667262880726354809734881266983),
  (1117911931916100157836386, 482, 15427030776591294577308915282298854681562344215287630895931797573417982096417),
  (1008683265655574705146729, 508, 22960227301612708919506832284010684097734305621470877263505578167299071241636),
  (436384802751748938458436, 473, 21754057982677295571284116502193272661309010996970316384923307174180521790164),
  (336718735157953108359360, 456, 16265286590463120486705206231835953324076688991892805307349612983237844034032),
  (460879092140924432971628, 552, 17679791107777049796013011282788633179411040182820636236163074053597517790779),
  (919828951508746169676184, 543, 4281652562868629887097957174897458165728741859103571825874408386197225591996),
  (334341718963659602067913, 518, 9168010397863299719604788533602757515513214141450093775967322808686129400625),
  (932296722733636043439685, 500, 17584182367226175071087689123358883902969885218985589531538416263709138156515),
  (970884707504289566561725, 476, 15671512310414658663135385639435845966109237059155734764323312289873534719186),
  (553490852220364393576291, 492, 10536294659491685326297777845632759824567028904726211134518740400643540109527),
  (959616528916845877528655, 500, 25502491061955242590985042785974361113072437828216674241152300374867208499765),
  (1044471536371537133879597, 501, 13431319759608247201135260841651365578663315527795431484765940626659812285319),
  (1127177208780687991161235, 510, 9584697124715190200241839387725546204368618031045071660911490086723434692561),
  (1098353657701797951543042, 560, 5180327104839158483066851400960171505063442195966219343315555549982472660055),
  (957181404946127103773038, 499, 18888217223053385111625483360538133292128748730565502371803782424772027937822),
  (598468876900750662999808, 515, 19535732913737027522540340630296365525208404217634392013266346283017745945894),
  (529948974206281313962750, 490, 8577759627886344995887423695190093296190181539234301534326157005220006624466),
  (574495238558706580674593, 487, 16793670928407147476673650839110019799844249677846432113010280456483595763987),
  (1154335348793937524554163, 491, 13926032620965299897272071104154310460519723329016284975305942957859374938463),
  (980706464499709574736140, 554, 4794697578055472890255676575927616606591024075768967985031137397587590174501),
  (942530948396595199911781, 491, 3529566190782060578446859853852791941913086545101307988176595267965876143250),
  (494996994200796925038374, 602, 3975008029239568933166738482470827494289192118694622729549964538823092192163),
  (1164758261935597087261974, 515, 26633307401371674544604691886799954592308818041832242967302115122871094295176),
  (410071458536378122056046, 475, 17739094873244464728483944474780943281491793683051033330476367597242349886622),
  (539437134551254207791759, 515, 7367136451127531266518046223598095299278392589059366687082785080179161005418),
  (353087324315893944715852, 504, 11175297939460631138047404082172242706491354303440776362693987984031241399771),
  (975745192580688743363444, 495, 28823573085729779121828703120989529174052559287798056341764843099966917876400),
  (312056781968103682360763, 494, 21687543815463985355165197827968086406938428974327951792877419032069230058777),
  (1031806454068713266569801, 520, 21156136641989461785420005321350884477682466566148802533375726181416623358719),
  (1203229251184786274792176, 482, 17347558768803521970212188258074365309929638984714303299899732035040892048478),
  (369515118180189449958779, 490, 16293716234695956076322008955071091921491953458541407305955104663269677475740),
  (444765004135981439550232, 467, 4206144021605871396668976569508168522675546062304959729829228403361714668567),
  (1193154687258854099936957, 564, 19988050626299122864942213847548542155670073758974734015174045163059179151544),
  (480503145170620295173538, 472, 747972634423324369570795147739377097591383105262743308036321386836856106229),
  (1069237562710159338089206, 481, 4612470951309047869982067912468200581649949743307592869671537990797895413707),
  (961545689248965926149369, 503, 9630852913694079049153027193127278569487291430069466630362958024525616303220),
  (485850226418176294015141, 510, 17941539917430916523930519432495442476511211427972760202450248798031711471474),
  (573468289836483451748644, 478, 24486615135973536077013746916122669685050651940725715913134151556506993398174),
  (363268717950037326093594, 486, 20332911350443969653703295317915788278109458962706923653715140186132935894113),
  (1013387615183176478581066, 535, 21764801803055897327474057344100833670291402543384934706514147201527191846513),
  (984166896927870138407863, 566, 18792043166429470991157980448329308661526906138700725174612608941551872082876),
  (489937653460185563183115, 504, 12308177224490762720061048892842527800271687977085172836705858261595655154325),
  (950038477818802746538474, 513, 6234555076867437297776538521925679658360922070165740193866337972293380196151),
  (979837720423468572706075, 528, 4651047048822067434403056477377459986292934655827821636179452835839127581305),
  (992932004730419797818078, 495, 4762047093602693619418269784972874862577325737690375448572644958129932507374),
  (602005855360979890921604, 492, 12373514879531674477721132062882065826558811149582829246378921774344318418269),
  (1038795455562121675321828, 537, 452512704634345955634014968317367844987135264395068376894497483188243356523),
  (1164320958706960681318032, 491, 21642936370936057063268550589361090955573362743817395689260298777690935495218),
  (557047573847679873996187, 502, 16170209200627740434842090607802586195654207376087117044989637541681675086276),
  (381502296728655726950637, 502, 11682826760471401430136435257946377996085824742031456481961511737883954750045),
  (1107103190126106005766448, 482, 24534402032512323031671214646336589171759296130393476067002108848515744543042),
  (557323942865274002643210, 533, 20628055165039718158878805520495324869838279647796500565701893698896698211929),
  (1024756734324643400004570, 526, 16438375313036818694140277721632185529697783132872683043559674569424388375143),
  (1143554043243817525207812, 508, 27274802445123876362966731080941153299779376621281810644863750973946807356599),
  (1134408678263070972000583, 490, 4855690425141732729622202649174026736476144238882856677953515240716341676853),
  (983046194376036522010888, 510, 23412768672456557706305718315879404914903642769026029925070334360090683109241),
  (1060338732970748432989858, 566, 11680269552161854836013784579325442981497075865007420427279871128110023581360),
  (327095540697831787107610, 517, 7052688838948398479718163301866620773458411881591190572311273079833122884040),
  (350750434272916969612668, 515, 10339199500986679207942447430230758709198802637648680544816596214595887890122),
  (302460963443467127876198, 472, 16310974164366557619327768780809157500356605306298690718711623172209302167675),
  (1126871118908285701110605, 553, 4572051236178600578566286373491186377601851723137133424312445102215267283375),
  (1115343068085867904941643, 523, 20933392620931420860078756859763708025350478446661033451436796955762857910093),
  (953652708886422361587781, 516, 10145870387395991071594748880090507240612313913083518483680901820696866812598),
  (588118454511651964072851, 494, 11173854866888110108878560284050142518686158431744851782991510385755602063727),
  (1185517397630702779116969, 481, 3895357290105797542988795070918100785105415165483657264407967118738833241858),
  (519555179576740790869909, 509, 16358886674154007883356717944805100413481233709808000948036974385803613296849),
  (1107495373751832238776558, 520, 10544067501284177518983466437755150442726536257903869254459488412549270232123),
  (947741822954147735828900, 514, 10495171258604974589451578238018388630585794890815982293891430761424812600427),
  (1062080158792058557532837, 529, 13820724103604550843562070971473423552484851063169471886037640613650155173554),
  (549853211107678081464519, 502, 2334954333435579600152488915208745055087482119087065911968347050969338669409),
  (989411893154745694526596, 509, 26294358394313040592931346416027574811964085302175216669188863607793253709970),
  (567950830848375262947794, 504, 15100284614446277058846085121308897497066957549089629374506920751044105723791),
  (1193385000137021937720212, 473, 8493821960754696376711287628276980042183127459347650448500304251148421115590),
  (532465995509808802065529, 532, 18612435536889941393944858783110719304584209891406420832295898519317994950798),
  (586403916890349739758837, 484, 362101794940079733974215941991047456600874474038781578925062694203564740952),
  (380070141561536717234390, 524, 11020033081956343850903875701444955317664141075326494650405276926536449284939),
  (1155826379836350110998062, 527, 9396289482656518627529185765935649373549564165735162258912975312413185691167),
  (966826525092148808686538, 520, 6879055176150676925438486069371149089824290576271090206945130252868108043422),
  (603587221365039405495919, 479, 12466610601804566637227883322591924115458766539177061670432424956205788935144),
  (480998437223539255497268, 512, 6570302110526154075173287644133038486970998888099669190857256824048085590052),
  (348009177809504946260168, 559, 20997862990590350605775941983360263378441519274215787225587679916056749626824),
  (383287430071814705521321, 508, 2642485040919927233352421501444361753154137311893617974318977215281720542724),
  (378774244561983200601624, 501, 18832940311494549247524002614969382413324906834787422940144532352384742506504),
  (389233674956080760031454, 506, 18751288968473015103659806087408412890105261892140397690496125593160830694164),
  (307916953966662737548877, 480, 13938622158186434739533995447553824444480420613323252752005511269934155122652),
  (432890378254551859322774, 497, 21894713215628778174008304897390755751491489559590462613939867304673699000213),
  (952210877701141250872218, 499, 12878982657080117316101160964182202074759312554860119090514406868768962707099),
  (1142712406215219966219884, 508, 13757859113119127982418426758782225628393556023865807897214601826218702003247),
  (948293887775830258425987, 491, 23605484967663049366667887440188038998433857131744730511905782026442606193142),
  (506137417406057331210079, 504, 11817871682869491875135867072669251115204978941736982465520516648114811792373),
  (1050689702705377497066559, 526, 11336448548896065624515261709306933490181794458266726453198857687608284871020),
  (311344155375802328736369, 497, 194970717714150352477887371297168267861902418496792228400198694925721020795),
  (1156962702234820164078112, 536, 4999282817977533227652305360183045040853565298259070645110453061034932285549),
  (1095008514935039020448012, 494, 17094174197873140035316532568922652294881600587639905417701074492648767414173),
  (914680278208681892186102, 510, 8484251464872873032022789624790167173458682056313339863651348894878144808746),
  (519008678550671114203897, 475, 27390193166887814189850505243074872951585919378499180111074063189545913467415),
  (1148980131701753707216892, 535, 24699323290018434063509661455007235412090620579731443940362305907244601021711),
  (957382642000369109604835, 495, 10260366716129057466862964875306868898686918428814373470382979997177852668590),
  (589160709117894476731595, 526, 549263552864476084904464374701167884060947403076520259964592729731619317724),
  (324629778829159849229933, 521, 10052714818439832487575851829190658679562445501271745818931448693381812170889),
  (918832452993611224500339, 535, 25933206421752075246477947125088143873446953960272363952275818129266099951103),
  (1186384947622555838936986, 521, 1735373362835209096342827192021124337509188507323448903608623506589963950966),
  (354973576035788266564280, 473, 7998373949540733111485892137806629484517602009122941425332571732658301689428),
  (348799538109348310680826, 531, 9035170288660659483243066011612158174896974797912618405030929911180945246244),
  (441671936178671666646728, 504, 6458619567307414386633203375143968061892762498463026121155477954682976784731),
  (973106158227706917166771, 524, 12314261817227551876673777186352972884847144237148169773300066404053441924532),
  (442692906707809973040984, 513, 25524429197203150278855723342980647759944172466700798546310861381626523800749),
  (1059774864263103780718092, 500, 26689534529631727839568063704484955692940091764185489207298538786235092894889),
  (912191940773926450892936, 489, 19869454329688183813243851218196625862680921049019496233616575272637276975230),
  (590222817511777928620910, 530, 27337774331817700450720180777502833134466360894581413402902801786314177570885),
  (1032801051206983456368415, 499, 25378463760702993078362405699837088680488538549990781158526579425461263749197),
  (918191780286007014857188, 497, 20326917073492686652690019138603910654692396590122884746951129061818467704300),
  (340590589518719593457012, 522, 26124271139427400919999296910258543869044327167778478627989342122442409600625),
  (983745132782093929804862, 513, 20403270805536666081472738304916561119325397964511536801752236086414818653063),
  (1075248718925426024492191, 507, 28861631335880042772834993877618501581960617250165930898595992836280593135644),
  (420012084438930602293270, 493, 2865941730880218719188224311916978807415673142487507504983320505748719154068),
  (488493986875864166756059, 494, 27446534620814412296739725259013366731801717847466044697693222873734255612234),
  (537646310158661304109422, 481, 22251495952315694462943682486615384117822921451749440104787753098253432737340),
  (435341531229954191129950, 534, 20614246027521726470902405957496110178017768563127335842405314212897493119848),
  (309203893941189995399819, 538, 12060194341463088508348622863463208827312128863463014006529428845777217660299),
  (963384769275197185136217, 475, 1128906798719793375274166820235650701301189774851381709919492584451845983197),
  (926412920594514474114117, 502, 19670876372911656158743764425809421400123168087389888660308456184201759209723),
  (1178524208714523231469208, 503, 5647230694522866559497222129254930524469944430191328619422533907417776118543),
  (1193396357279750690124072, 509, 24847263669028246643272253181021452979857792107956957578166203362095895630800),
  (422391244334078762109628, 496, 318629082509194371490189248876734616088516535434806492900653650176451776632),
  (308358858788733108809952, 496, 22502743645179265979823259150568724442564013886048065865134266651783333110995),
  (1140811011282803931400466, 529, 26778036950665759164389562293602425054425169476107087135464090205851163527584),
  (478692540870971986712254, 544, 26785735516543092453545280792776791425691125105716800746051393836278878845818),
  (560387936851024961844816, 506, 13685970881538585172319228162662520285656571966985351768743970447782846353365),
  (1047695525520273476935648, 517, 8283840607829148567836919316142994745766280854211662326632930274668867638198),
  (566940178624752343489283, 506, 8968895518159422029900464138741638511289476298837958524156654785428413265371),
  (1141279442359281317791851, 532, 10061801991000917366002570579819627134666386452411986168205986791283562415829),
  (999504756926001289796521, 508, 25087837205474999912877629450405361866241880781403566787434403850867709230128),
  (473946244084343113135608, 529, 16048415142459547861678519543891808877706869021297869872293560636353991466501),
  (947358313795039997969666, 460, 11244900211977901581342209579004102339645831123542519630105660736802715228473),
  (1014870401805882111450451, 485, 7055442629157593263575857272217853562939879921067372589684498237391974815373),
  (999638881865397811854998, 476, 20530942939538019179258618930839049476834579799206196934039206516862910699098),
  (575872567429870511870973, 493, 20737706055256742831153862344210379981499064370026995374674714660786954056730),
  (569189663047276676787347, 523, 16472364076693804471324717034990155227005079745290730654281793464291789138009),
  (984922601108253264523845, 520, 1610801455834993078772143306655602601124413795838698703231402305252934447989)]

/-- Register after the last draw. -/
def grainFinal : Nat := 996015571372538957968101

end Verif.PoseidonBN
