import Verif.Model.BpTables

/-!
For each precomputed generator: its x coordinate and the coordinates of a point of which it is the eighth multiple.
-/

namespace Verif.Bp

def giWit : List (Nat × Nat × Nat) := [
  (7833732625939232563649200481911017318454701624646264604394562261806792929356, 41811628600982617833491507887422703179846447573621052345439086946118140608073, 26056143085638526844869378650204725021727809421436372056644988300744228630947),
  (45341079655076792323644369515477310927288502647573331431608557392230698094562, 45016489275530172275740668854019691135269680087270651365787386208971118074546, 32146558236521670071693121023905342687987932852430407495369235848172180069968),
  (36637359852858892408357713486495051632142642763707563497777103679659930817321, 51806146698275812133362091906347899884811311338563010699167697197497348743264, 42555324530982692390142332706974549968923487904489857858062553628053336635366),
  (10038406630385758127197026170771173288930346786412023322289822935921948689231, 6701089539689558190382555169183162536677734159752328773320100069592032234194, 19834683330479739789205171407859143515332212278339210014061064138801511433010),
  (16217309939130948837861458376310745460074782766124561176140311677041483996436, 41601463289686713828148420878002425975751758014166887734725476919202996535263, 1909654446280610175846911718852573117726562498155637263302885394408640231149),
  (52997685938208664405072494288434082306067601362060109224077486088364965825195, 4475769772055695511074342997799988434506206020293445522475623316486078335155, 1744992925235563860070297886165343686704390715930132758263028728436544101850),
  (27254815624058477507974506821406877537320151035446445890987904857205797613073, 40054241822377571867996336447370451082306240745371054983724939958419526265225, 53060380658451258902636884060011071871886080382025243433646707434654521351797),
  (25599254071037411900833929856032167273460018957426567680863685684528212437197, 28860173237676154785500790133670201840707004623319415399909099345937400410025, 30096737452629235237680089310102347240988746130425921691592498551622839747696),
  (24949341181694538149545188616098383205680145283229437213953386862823195126881, 32096387161038413060832303399466630161207723491631110984187153627327188360260, 50607505513922211420604655344284223360512071367982746996867529470296159955923),
  (27448231189276559956486674483156032162499304947994464748079958314864056472568, 20826960638717148983579969197986816284913514975717560687194387460643949572533, 1063879440740205678248763956865840216072471543923874722886769182497449273468),
  (26335453447705485830202122978150726217259932066409359137543371806512958871704, 22726883623119665196405016231621518821756215329925726174583761926993152916194, 44749603665585847118233487977926127262033509580815957331332253303324097383273),
  (32089324331635363759469201640211750799104033571715733881818082167628267131020, 40380616246912153152642551008188776359789037968438161320934201121854264723344, 25396521895159093819874238004979759707012537687115577277881497621732181102406),
  (53775111098347916075714109722491398661943258298922236344425264978889715739453, 23918467527736575291206850416153009638445577534358849144810632964024593264876, 48866895019634742510051530285012873738182344056721526846459395626126787350909),
  (6409878541111344804202140782702658516493883749308366309176010630765828077553, 6057484109138057745010504869193597629375551641049485331736167565695947588339, 1041696417697428905987101077022921431429846330150062604546326883478753757061),
  (27569030302312455926382361369592336743041530271738602589479144027184279362596, 6912716824369215469250748350117013833611574132165986187044754603866774187785, 24416011447247885493798493685080498799681902508212869145954747064906381464767),
  (29262178263696502728515503879109196264964229184395568185146347444253253275336, 23904686824666977498495483550064127939577236608365576845142256073412776126796, 50811058319849187456143119644518543198358460572833514342596398210078042326070),
  (34157178736386552492861163491239524532355468483212529824509710265945672994959, 27973813218184394595153830626678739970517748940481086690943242765362876681431, 30659530965015075303165044330346679037377356274136680842733256584570430434909),
  (50694128454671285848072362519662484433176014393235130059672007181297554939155, 39704697625889002197437155539617720544168158909804914031949577706118094792070, 52936411041416914037272913373053186271966660458181875287614434057371980562096),
  (30257950758449385146573575722149265514822269225402042190712273537602959339857, 32057990195930826173663759632943467068250492802412174251460519197816182691645, 23294815771006157790801918981863158904086589991686861391695273013952963652708),
  (743733250153571488358178427702177195501363026301692596213651727618348807465, 4994156302277922269420142127187378091319249582320788914042161637191856517314, 48888351596592216588853914237879964614271970564996891732759897788956734702246),
  (32537659247743644115697122897666812054970346186963048188043453198673033881532, 50305285967962945480842165022649908142680476038110855698948453094470419691223, 46250190910095455916463061493086393932905108427134608572057807463964337191497),
  (10997305081259414269344662058819976685445471908567330728358389921070194658803, 26642478438746127145942993714034648045095814298740943106277703019314792383926, 35394662168572051029848750785421416251259262447734101609046756022849991893369),
  (48455304154661227672036091681401902872564757914510327677630177934323781789544, 17927130805001645031082970432712783446765933458365577317498510753745560808098, 20781019105317255269909237087076062744097582188565165056060498134068187265302),
  (49829812658950375158490588056770631939099572137032778012219721046115573209999, 36511090118862250940670628143891446705903522542502653459780561359036646101490, 40646935830203545544442252783162201824694111894375002885083333266223163516324),
  (16911715405590807353920212826680848469447895625938225737716751165678825694384, 12843823392424284568158459351295379338182799853372771589482111118104786872441, 23499207288733708628619288083233308407970388373409598843528359110287531514143),
  (6416216002994605950647036836772503890714893988507392947779107266438024577648, 38378433140975324708272899009457557067246866735029918446629133716066070980911, 45290385885466588541240423556067020098538408793262041869937940893027369916956),
  (6449450624603611610197980066651062625203788685676113273031331902793318944407, 9912326690742593766456818248016744209057882774168851557187614661613249317599, 1886525341828253186041194702090774223144959132759075175036059178487779122952),
  (28616083998829387930009372053404540357035863397457786236726000766344517416979, 46816100485591955968738589374418989437388677256041163723998385323456276731305, 14495501887307773821331513939834991384713592723558301670116076844448643107446),
  (33590584097588875141199531708876091448949875925019396924962480113006536885931, 25216405583387737010641418159512134260580974270165171571100354402076003680413, 40144033340516004431135922323391656912231812628933090646541606312456143440694),
  (48021026805564722343174902149378362181903355867120615758432987100522314952393, 24912494420926081743076962619556142514135634495308296928654612133498791534754, 42493665616724882615351223995770222287767426956333514416757190990563323344571),
  (36206845085417046196868784999255080628674077285215319986197211639512803671639, 33572522662168242874177977322535403209999895344371804183047322657082313626742, 46092568916230817228566939280488721519899872282851434704411368436333849084534),
  (3132390565374924773171268548276303443449190669025265773684701483607859045407, 48114290238327807469196233063195001378085015410740005788332373926180505315590, 49918822610533942346541336919218165751603025460924157997448938488949996964092),
  (26431426000874680090929156787078097656836723309129974118378455802337420921358, 48838178035335414010599759023481344203655853200051345257128871861595502314378, 41886589706698228994504503934430902559344834562758481294818479930382455449101),
  (24553456932378756880071174805518459409265628322029022241479712907333827809784, 34025690432424752871296420913097850687364301782601371572472444146831559776611, 12478423784370025601938171901585063872499188511408818130797452899943859388420),
  (11224583542135565792999238541525926454601019593072714552185906141535392403144, 29672805571044474104475184649647478654187764504641724654520811506736032322623, 36614814887176914485900198241999770132953547228002894006276079136170664438573),
  (41632892811816525186351701374752025802168100346000959316752696043997397153933, 498691305107541749801679522819935101077527496543743259476731311261121450650, 32798896973852076434362079322649543262576617547899517229705432162048678754452),
  (14399772586078287878810339609791283243981710231263765970815038623437367205842, 4910165595093932964098131230002624017533038005862932973214959249337469915559, 52288482872119674989833268902016399708134161690397829513021218732333767495115),
  (24285795036111471511188349748256261144424740219662494995758246264497087198663, 47020765993632948878258381719859595319335507190259944556850947820861666663090, 48676756478474012727926319596379055501838332623157464535510383305471357347080),
  (23739642704032066428215177837097450450421733599048278080711701295488333909781, 2246942860760257618007492158165831657899060521593265922890765423405936694930, 55600649457954153881485482493361507784302384849861139776135267335258912684429),
  (56584886189082827883973738122888239566548786166482853243536029666244975794032, 51226687984250553318533899542042935814463667527393780007978453211359116911837, 27836665786129265960316145244674139087864996724027852613640656991537315576768),
  (2679800082246906051417636187909466736917966141097238052775075472204164144563, 29348782135905618961681746639587843072965159919922677162268876398098198156263, 2863996229528949551981645060838975994986379596653798101445186750375436500281),
  (13807784385960265038886986953833314522927109408454546260998428606638055718831, 7633707473430662537754928557895638704655254592112077996445161675271648211713, 2412507878785919760077209237273004064341970770928164983508092638192359349107),
  (55101907791114783336088845180638024360784382023149667268199842868649250333676, 28100777467241756007000417662782098544908014806054088644550394998387339167581, 34199703006168102743708128674676641064947421541917975377908301020001270642381),
  (18981564036056399681677203944908008570661171069913397271646318650283012133157, 17179827161592503331558556484147946567430881136494549139662234309913550013666, 20965410666848364085063352372267506858738827684292269009344960274146043385745),
  (53430118641948370422647829447415909951691043552380562075233759400731826468377, 29500666936869883119742769738553474820142866340373209139617986192796343062691, 17902022821085621545961731971274135672005882195539795986925659594530737510749),
  (43737495918196695444428151980729914740104848321606456098217850315675108881481, 54749747264873778491517746894946941928145366735489545742790453289386813953509, 7519745364269933280069756012208144685430940184727616177894390346623608701532),
  (45566678692280035625285925005204886173608749474306348071162755411414113434968, 35557098820890113557055026045428595610320260310031285163001310405507146140952, 23782188773137911220849764706928460179474806619461980116604555003804004517814),
  (39967983765490826559924160769833893001221495923396475478246337156074738035931, 13576377610301621042457365443789760645247133954919861315323645602519849452705, 15571439991450768803394116229268015987742571280264167521458326486001607407900),
  (44312203598702442124546154801273644173070016422961297350284737012223724919161, 33590722948659296897175592543463284430309964354450372890943467093182974856105, 36176500180043065829577869208896937269967814025410782606377167768360381433196),
  (57291907427981934953606507063431230909997099117903856610460800749146149383070, 26402254596306807685041085966674525398762864016897475558218073529084160124938, 35926164124052260612857332519793481841475166091855597454136238023861115167672),
  (15783925236436333419878616271833713523369506377175554207488780900489398331380, 8992737313103014659514233558615280095765485852307986364535599860082615801996, 45221226733519577669141987281824457586623357943204903150943568270551913520427),
  (51518728844256843016078125267848387344568431181467220553364929911172413286596, 20688746996184796601241064643854456454276448343581592676022422907449462822487, 32592904763939852739527311133048221553838434548126042174051740219645765923833),
  (16202894393073707251452080421213808829972401077302959266135178237866006726768, 25098533629548871530905442752598440432686524507468476896179633406834405281594, 24278819067857615608571848324677310888908630622676098251228089607368486948867),
  (40256656638794295470393757928858916756802652197584235021904129536328813855746, 13152682443147746612114016815953858417951577584149108326545755597999766624085, 40534907214072246669748884307793337244732163811769573621289552830840809873929),
  (27733750286649399498801653005234294201937286982193430232695734257460520754679, 29270068120566106584952976600484758244560305951924907113334311343877080066040, 53326400179162780500470436662605280500360031635552527963931351296051491927180),
  (42692495009536929315196308486503214166460776637531794611525729723287631544323, 50865221557741694084228939913631286509951080678147368591877783837670468822329, 33664718460683951002844641304798397844483593608258471391618939398703707319178),
  (31560081988736237455487813196823222118768346337997350681140685669573566763980, 3861650396642034726442512532399147786806588061816720829815151560381979923903, 34255722814312340631223501592889104413434069539691999842385784759298947915953),
  (3547493848049850463700472284101727293169054636562091393689592240351458439739, 38035503644299897325748302921715261710453699759525525280925335383553621712651, 2305977966259417039597114465392108409935910981208136554494116890089236076823),
  (51964351694329314010345165096687571681214982352420973289840498723220602195974, 17888494789157193932303891020527492251296331926724509382902739598018646011735, 30344845754814722217213090397262854713785276525109939062140014527760712048432),
  (32524705449014845127712229394717404941693908598522113140575612450049358581917, 30666388620748866395058951202930536633661842739018959878369013709069116412745, 6825223893185336312437049035688272217440632974525953181065604577266306270627),
  (26947405821056940378756629590642164754160417841563535328349166369986807334110, 54293709193721740304883303036575926286584763345330013830559308894997006357534, 54148507843457685144269441255355367363287638434205032896440737812601315786946),
  (6435712086338137291895469940083890871284383890576129634089229270482067546082, 52537438170430446821399047171525585620999482575439952139419636669723249122857, 19962322879369688670443239007821618333048575262374139925472547871399146267875),
  (7500521205954743043145497576295653284926010659214434477190366065183533238070, 36651301462575606369341727711937465225430129205857638818140128073542131683357, 43041639251895228566992002966534042761056041815024953395978516104790570461735),
  (23115433993426241965724622389378259117710797941499543062384924969081448753674, 57853146888601890602318570902567491660039014380301855558288606633587671183417, 28805425142965763999797922776100414774154015912657615319111048424479806943564),
  (49627582618044713864133595345344186184504398578919691887617447623267132094100, 36701280224757479293238867848929309398341887705163574382746258574994927083321, 36747602401106941703689889459690480214649187547288206863302056439190447771319),
  (6013155001969091448996507596611333064229157893262711677248754746508611581488, 30634490607772843922064267139031715754072467583619090862485379521949654271293, 38222024404395364064817825327926985932828942959858911832878842709374166767476),
  (56941005468277261320005455839861430186126317968282673632000816241227207258200, 29369895775629832553971815265129175831561052276374244026543671337526981286078, 1389835150454095149109157389582216826734203800252567264277227731521529032836),
  (51075627845679220871626950083720706962239594960440789182483678507924670484521, 56042967792277504984083459905970728701831459309128274168916315557623317455412, 56401525318403341897372897225350438071419121035266020905560601681606862076252),
  (26273047439267166337066861954940507778461663277585555793070502722096595853582, 55331257373846703330199416602138061038064768343001092026651167141682385336177, 14944748870912655044053290987903882337446199205624459392662835718664313477426),
  (31111562129918311088808903642264743667823914031358967647030800365384884939849, 41736932888912012368797982823704904023887315567446109979957616369869351522944, 18792707771247099408081505081324793820740625163601443410849485730511496287762),
  (36790423931852253553730946268575151450993921831841157435339389997598057694862, 55232626379177284967708995432121738166598077154726376574325242114722508203179, 39389158233600935632778288751842297356196949450341606007618019411007857988988),
  (30022215830433704043892891553119226065108968015132326923547864391720831504305, 36083662507071901557562473378981432651073507675961819500640353067131666916368, 6514792683975919936728850099299000038545818398373722385531007770819401716164),
  (39743399337666180318566289368502403607466284745443504546081095210704534132697, 23313406251147747756072621790765438422793210157050269622700297437388444313937, 22548327141279586507448996664454964527324580918894070249148971837042129416960),
  (36859592645884090378182177012459232543426943763637505893732596975905787321236, 42670583969736688919407921365471016130355603330435254732344524172190535423590, 3755595165367488094157182702717886265273992921374088890488583904660045456882),
  (36698407550131820457183103945299198847338313747582153533118682711855782179944, 22685255858094267467365671073529739063563302786782364446209750102346059130466, 33152213585404575129106045348310587112240554560723681829806877660217782052992),
  (9842429593031286071007070839714217527270964715898890717806533396418112137337, 6780378168358807326013637543708957897085702250825192020934557638615146224997, 38343122593885413708665457579336951697395996193896220552820795777825806551202),
  (56342197942344898063730634047193038389863120747820915758905240511476830650922, 41637584686639639402921166382392690727962453631182018929604459393907204568792, 35888445859146838967879285487228513687307866531976667575397173923434070847309),
  (28109554311825860541509955807208440800188496911900876465545588260884981620601, 56384897295004400954945734369021403140663619541842077141295904712548348298750, 19228358777782718187683702519495841038027114288927768744623156747184491360766),
  (44634868165103524908194482256288399339927458407499688583835287724781064582162, 37188670979810074906745728060400761243518777839363565824094542823680898841513, 5188965420756074362403664075003530628906744298740017139433678604084442228794),
  (41962370956100642567837023306959715089204765307033677216030120408440047645477, 54456966222602678441551658839803200051208781680148121928315742706683148697259, 40696558199617484793674929843908163807682853526917044389289728377021317359827),
  (50812819115901513633734525375698159403669687345008681875860010075486343509807, 20430080984276064031994042004804089434064096163134611202725280983469297759924, 2203930650806138900545375644265180324976495841775507275173144790326260703443),
  (46401156372053619314960469912178143204228898565122285386782398665343517035244, 49244971182219936549229229035661153378744385711754072372160485649745522372112, 10412280155831146356287422763918699976152697009654148838455568849097535958815),
  (39415417673113023341036069099935210667755225983901588385466689354814247395968, 37563745717769446461490111716464667375050723682229703274936164444977682446229, 42563906841187657412026311797417020872459862727485453728566313260663824305730),
  (33781870263789258186876717377854713415040843458090260175493002112979080109175, 31024548084626729263721542222333325865819740012938820727033116385905013334223, 54272297084314591319440731257339637295868233405482155987411308658212274393379),
  (12525050478659041818895288780149764527238763203635052403567520566361658368606, 35976857311544572112386318304343804085165638152426939857144935679369291026819, 20875774129303568141311151052936451692987607994634466608114339647888481930743),
  (20407921272011579659866855335669896565260787826832315151880288456292648457020, 41037038487725250982590039089385487304741906889472463378957820509511396805913, 36771524006746359962902102208451385277151032549480646537434927635590843856611),
  (18333921843338340146811021441922164233676851983882017777772498935272168778953, 45198370746435026871682242481328377242961232491908894123493572237781050516216, 52884604332553779177034436031918571474562528134705946719431559903110945250506),
  (34418355943739849014230709708455177769064739323850954089874689968131857636924, 36673640559593976055592808132828075927501376246416314975698436207979281341333, 42506996545546926931560721080944576918107027189023020492211383257521588906881),
  (705105097784440129054826611021797559196390300154836524251867364351672272464, 24454401496305857634837474439545266604011433687639774494828761949610188530901, 16590512773050531969760082686419841939958753957027348284731299024828478948725),
  (35952689643464422810166414925326367455332300773863785525516468831470487867086, 32081851563715172902065618211341025251809486903664428031329547881283247683971, 33899794237589852456649386543317018056060778098801566173173088293952766372910),
  (12530902718775664806923904069507859603846537819767841623103351930218243039767, 1327414296745297295662829888274205129005701843257182058787875061610052076457, 57726811266731536056853675296265053772769596941707510499229678677882964945577),
  (25698623968752048050580390059912792396989565375924352526846005427160794299995, 6772256340339457506227196551020585336006880293043848949574263307571010968843, 55876238354115940405404056221183369491176027255748585155222998487177746909356),
  (15398099608851922126204583990259158078809875868514180439508275967508450449437, 32059445905195480938984067554622878284920326897292205556739163726528834057036, 36811501633833810083024232182746167447180449715847252745900348468138702975672),
  (17356723710963260939118351068103426656472711388410426289526988275044138452245, 24844179508198649603254237629449974541890888524699457411663432318216799766518, 6929438298747418412077889411910078924385850549131222786757487016758248487101),
  (51011079389080564357710368740225153207331856592459445329680313528409389117465, 53846785841582976409348496751476310772272251344272957386566592355939005210781, 43535884187465789051544836451008063541244338463204748542503436147870931288253),
  (52520179180460209380878280878186714490747605319297965632931058380332409840630, 46264445487986001140901187061345562995985321084787515243724836266522005084613, 26655519875701341676786297579817980983834192173212100913096495909694194729503),
  (28282766042844688354935630248793725958130792738326803053301736305229844282241, 16320779765026172649614152562445344407205876411219718982620068928150145506885, 50779046998117285264379519385617599333274878403766187193548356271032382756089),
  (33562328089458815041527059306808735343229055286849310239048073837600508702577, 25349719490388783788421188484543328717107078405979886374235721878356711245153, 18058023187349713637695689974991682368052772856190177883433182323480682299241),
  (29745466180414319890467921453032496790458962613900994908109912097587109540224, 55475463974091640414431994250089365781044689011912060051713736327933091094828, 22593350799412468861879918903066198253001530369856271633209983803439084226302),
  (20753968617380016827659296143678830206330693616850780402530800716099097101609, 46434264777619689600623460691722758583150481760517215668823231904984562547535, 20094782983366651561986155995156678731223332018011816801123592334590867349209),
  (7993252253842885755449948328711825725210088144823245438727696645306728667615, 4590013015252492490589874859032002876243183066764396592977607720791578608302, 55537856300005080597359546074007671194373134382716918509208011007729383109596),
  (51902910289399576839664562451715930103962906207994178733165337274772854236555, 29349079723391287062160384116044286868830067432511652718843055673534086637995, 470247039524008049074894125332971689354651805911326834830503955746914666915),
  (15414033766365758193958088655547517494099520616612441422825692403821516373700, 4024648024013667457781390812568481039979189731371702946007979105476059289906, 31142452680201746622467683295622033265811872257922553647049909090057963016699),
  (9330273283284963076949016859858574111147543313606998013663920902736200674906, 6764959193265835785774263825958593883896381049966978121043370687870161748498, 45045826153913682798767642847373404474978104998705662912470336104529681096391),
  (22550941668314042058313313624493255900406007116357891622988437547203671253090, 29218568005067151828373447171899029922391482791927622393104424758195196596537, 23724553824908409665911417061624369442265232753333824585605610609433814875311),
  (26903363424081685048121703591186825401127339866384855398728699542862857570012, 10125474288242674626360693724587971279906717015868479524852226765419073960108, 36062219989630886793841306179110077019915732775153354813747206543989185348514),
  (51081925226684236382466292022497468228953766548555947636664141613804512916721, 3872080798751213247318764078351799874643781298059801085575383634225878702260, 34456159087062643761103334500385435378034872023390137736030841787674767634856),
  (52911884025130010742005873848665607158655069053082291221644472931001296080700, 24713164754891388427644849193881518731662574347386103106495781947778287375360, 17126210593898470444914233209248587067464280896553190835341564963350700549846),
  (45310674874816535741606418232669275022314816479643079856296048771554432142171, 40729111058724523506246448421839802980433497611855470220888565402323750931634, 38362957685896363811781164848440286878536402545312858061037668323662049666969),
  (2344577797151307118270008223970970484366872032578723036615111096553494943018, 24697819634161611684740858048141907918683351160032338866805167327193884927378, 13052872434114863815777147668904639990351605424645378917466224070193693290248),
  (3149890475267894368527399951889859730350686163038044637014628227962187475016, 16751394401707732494807602980950637075737899785830728288107335929290739091004, 44523722474475206162957209619188944495935163485348308150272283440343842488881),
  (45084043081177436335883891882254847376025118243117331604110948825933495494983, 9152582516415455154685357175910173158783209772642427163772719560397582998660, 27406427447393622417324201480237553396565989171206440551215848971065530947603),
  (2331217855963389264622565315976998673926826926098923954401127517969521793478, 33133193535639554094717570906931916530804540449981387515625606046184875665428, 55376203661061529633739257669133867294776267133345408035021995797303955657728),
  (2124504423145434830777120689837011094995292136751176952788799066300067214403, 21667300873065676693003063137279879567597504713284585812768704280063940726407, 21654989900456483249093350010501557602574595861095078801637059523826938056204),
  (8863914091405814121822063769138525865692499096510677485185731283143820469055, 20727148623322895885394128186503315360683662034484695051009309228012637357480, 26217349292654846097091584101536067084727070797331784775326743443733250844050),
  (1723762714328129193205497610470536669934953774412141541582543191643593493027, 44934827288465506346132751207752586842650095893091066493494933662031981558329, 50236466071622490633317273872953093890103071542824854895122532326031726767355),
  (47018277303420266951217403761604852440741926309770422148849033989735041565703, 48347611412483501394290953098902066300494480202238218061050122295894480955972, 10684839861531222122321265350443350459603732948202938494001007716087656012666),
  (32604801866043414484806857263784178425344042377701720169138317320588324000809, 38425058765735067902054025910586260949778872998230875365688177161181318797094, 12088228123564134399270341523215230692844934163758863978357191183827001782298),
  (49699480231953763644744210021904935353377893782114989422906157591401171347899, 21789184366745846637567992063312619072819596839817845559911660619358898502204, 21667475404642523995361509560532615027575862515951424253532715751736223768345),
  (15183705246290915511607556559069060746766368409246283011020633699010215289461, 3476342401128304920498494947777334817863677810663643873884718517706285707801, 52351744919308826705754632767690712179651769788973408345630410194678533519540),
  (52930470993406209767352776830749235790888995770311538157585592426061783224234, 40046706669348968979806623368149220824065944199692108274809137240743948177133, 52644871631037583374445683176294306252473467423256349901113947628306093180889),
  (17832554162491059436472224392739226790012547685882361447478082276524195455802, 30782660089901626114340953002429870617006712392864009113934236820909241661863, 35940443731608091866739226942735625246195484706401236309359933740006357221838),
  (44111209796136559337618596394974215967354988469457852864617928381267652010366, 10700332161413536993630831417384557950689858996976219739917898584058352893291, 47029211391223950350144707434419758853780816155810949083002940504919913001020),
  (14257987345095471065032457366629178188393368002654482303938735694126758365269, 5438041899531578032340731885161330676622797631897228873495673058004045601633, 21248372790381754279550116668405583993088619034882908227250931304447088498707),
  (18348626535963851040034183554736063267733180929512398620837108860713787513507, 20822259103026029742116144305230265543902023457721235653273482269000835801665, 26274046992142870383702076184025604076116037868414230351616483734993292675045),
  (26204720851798367157384681566352197849794167317057368896184393929269843687441, 18585790169893736674598120599638967731059493494936676370391759414298948393334, 17859910908296856124519033780803998247776901664753190769292975733062493718735),
  (30193494153021603360986646777575666536930661791594134771293079862801958690445, 27899919212767363124186761148878266723850736632226617983235809572101831294365, 46951593346081179246160138046548457999637545918157609905789773354311217975031),
  (45715439953972941128825200478375556827083719016344253116552954447897778305382, 18068953296676451881944033560186113521668407562323984811822609331573590376895, 54956141432223522003893680679595464531420454477664612712575078083938295166950),
  (32902999720050259088503706314936306890888498261235642472104708168285300005765, 23751816249506466003713230361809131844514495703671508716281454367852076387901, 39945486076330789170634671543507582667196350324442804747200002566837559168003),
  (31111558737654724502762728947099819913741366643669995674627410250016585500377, 35154086099852995701507374988406291542168608390304468289750362530166850000783, 16716425822096763393075387094816846544165735721854851276472207355064160980447),
  (20035066081590652445052827484059632470885181617779220959657360851778146584368, 37555855335839367923101290890641480545594616647233380559863705885856841183091, 55969014462413945343027413706358735639443999048840340754887958928427656063985),
  (57452815818761649664686381943455277481805039633396020838643678598230013862315, 24092332592211268522404526057199433545019447157514857371718652180126780580096, 18165393189539141860661768385547955574693646683655177912082563756991499138462),
  (16827487864680729743053640901459052392747059726456147246054934278630363014895, 13327348281635471149078014322234090528414231028939714454764115890955020324595, 50317749158005821443605413587524090227179235496985961741000643618042784837121),
  (29601715102334818902467431063541139836627199235255318424024821566799131439541, 10226015343682040135145394877041744484535087783387740946714509917160133145692, 49581902967270389194545611939670680566922602523090624372189920155438696495749),
  (41147607896412185070767152333020164519306059671031595759482974070265579840635, 10264037480263860010574387005785294467312688916030046517044335149967002962863, 781692007581545840119427345225477875737833258046505910832332106020241182116),
  (44198175233111595975648836212840981179943016901229997745126398525688701538858, 24154541989443182685585671219787689525186072111296521071474307346413285700083, 6706148712346577945242505126557792348717306756718554771400841499399365283409),
  (30690367086826289236292037202471582419771602959583526954706301972127798361016, 42248574404121216351507863685915693305944703060117122525059740002695304667625, 18560196247274107480291316690886811992620451094267464334621938591000319553213),
  (28693075561345497335595643843292189261376264320980095100852270222105210368526, 18591571573945198312372284339574108809268554804350614147358178478390218702090, 36631670119713623267302446401152526293714514943951601633643691374199081345939),
  (47266786628750184954564277822881201676121617599781571063328075074656043484577, 51011321343425310280507696427102025599979769191672964925754538176525752147191, 25521770235095520731316101637762981572249000420985110018521577833155234902094),
  (41676553916339089630138951167432544990058773073993466310720870119118872447799, 25728429703003899657324487660924308351958054734642356122270969333307937953288, 2871393269598040069489663749273560364851704718248688150766878495740414303121),
  (50116379289403960780362333944514375989350679653573410674052161968920544050375, 5147733141540140767627800919677811278879799968703225736389831029992182304420, 8845244997705225436002677880138336166957482445045317136762654882090992279565),
  (48042980430812307287210478859935558802457597009857262566418473111735442638219, 27906749902846203375016241637456326782812368278438118600277896310583813059971, 15040569359470805312796661616541763183169976052936292667067119119399409209433),
  (5453703112364666011450670980998147000213103620759116598921089553636576144299, 42843828625599160110109356564050112092164537094867700952650899037976518084343, 32182400851098640037163208884788043962299930001830370279720838719648140016842),
  (2622303001866464536856486413305221640386377554073318934377958157201614402733, 30202451159326377863975847919995880996885131469844884132709325606477505536948, 53162281634908060881795775213622859701633863834222298063337757216354921903914),
  (45041091911756449413146806087622125245417525176642095031430822753201566397028, 29489572306766223203313919222056638102560033133881470423051318027899818667382, 6694404503405612596883376902502035018943360636339355750552884872999548731524),
  (43647444377456720771081367071648157663729329578835315575360482864015583824681, 48717931249680121312873345695061504266319100424971612167973274105327629299141, 51054679200216710958564310878309025643557209095808591902824147475704772121990),
  (53303423960750213975218479217654028113657146142621582329990661537708401545858, 2388305348472768161038631031338827819617095015227006514887583321447132816078, 53886113324601775298047737492063003767892380660931281558051304194961684264126),
  (25012290180766915110197299240102156340070562087070510282123664553720991781866, 27124800360563774358090828845806458801785232215665009343977181959012864746640, 256488064593531266411267083513943157382650448598776995318887384556151692433),
  (4172110695207125466430769945898088617292648055719361716682317019391974132229, 53932117192723257870272992083197812168370718809133175568305251056615539520202, 1350622534783471132428000108149386007384845069328745283609098462680472154776),
  (20957273736958050938336881515595495570973476959809614865001793710511647066170, 30149119572000284248252793212988718886990513527781782123962176827504704357274, 33482148809362415230398513577434227765535134156449099358910171694099113292009),
  (51369670019216681021586680301182925842521999526150713093158054348529015733224, 49162031584406146328137971787321702490752747950848265350475136206683396493071, 17341492647273633248217857574920117092066027484627942181034257460690504588447),
  (25864231556887347879121908897196741287612583985422621290612683631291680495868, 4357897995328991303177468830314094252664734747607667187029725617355318219934, 47743631984745954352846344983630219571832238335139966069052713133834979391381),
  (5545779222129550943391618754288738173326224406186764424748083241565528302399, 22752260806262310132299256002910513571727563393258194094295157282766796087345, 40518115609472500826383553764843670574441042969550224932211018335126850734425),
  (32032629026173116819897917336426347863976818768088787384615164390258016833150, 54506928236195033339882336261089120128034874617638134443956298908828133024723, 13345179362121685666871193386578402538663487839938374996658202953323421140595),
  (23631947976375634646525988275965456139438215614701877751407427591217802993408, 39536218354335759441697001481438043994378651346193191294491516351610028055448, 18420169198845014412116943180238008693221507647436278245120094662069026492871),
  (39092907822506765775643481989996265882966554724968979383030360648026155469808, 21137989333935639227110965055075694290094563478857889631329106558840978628993, 57654705878165138656055230086067048041748204501615327556992232465736315928011),
  (38571301074254737521976419297382060788164552304205957478609934842502337842752, 17634134754868026001427910352303924100844245087980318424419706518568436133661, 9323601009417731475256776030327869320418226164716064112676752417804615225039),
  (43737675163716909442534997534479766821952109224768641096513312876138951117389, 3109553734916828046899315450791186624914101961862040154431640858289537145772, 40642867328522466897210185207198835112922643564132052304576502248707668440380),
  (43194977039107237247148278635472025219077610108677591727622093706789747669850, 44318673391234927248416348876236992009527095930411208914584673118125351984635, 36001292164279457426203668562429131473994607934394310033442597754715824452376),
  (51704725160913303771306812176425389559378154747472929183633697613493800771539, 53819163951403318970115345654752256913248758208407904100244646406061639279204, 44939527125704217178856819239850502412376217275342946810869256179084843704735),
  (22039909713593675730088645358896894387715152405016268468353407062164857350592, 43936135046090990372259242484914600092079176452364705510632454818541444747917, 33471077115252151232959411347427794604688931154170296294819635131439024052629),
  (35484545742675653403249802159033737076302716110604946724771124501480345318115, 1509468486724782545131670068745492010152685753949320747573025825383577000929, 4838459469858878067111066881135021807405192563307097008443018239092552181606),
  (46052372741557805948123666140492117150202026030446373816608318051252560361377, 31968364067675450249183497711494917051504879530816587718246453022753664360593, 23681579506319757843817567695578124624436201453401143488130290723753625838568),
  (43946547366556413541405169282044656920830701536245914750106369325033864403453, 54133867216709562643914114437176278531755651249912335293540470656519758280161, 14432494605977248828087093025795927908716761752197007685536270452804991317653),
  (3975973970477003553848630708182588852170116285899138582949865860207731190247, 49863442106404254791598126166878780903014520110709575480135438691710865520708, 36962299657255317588127521647374653948964344164167272664640536908015333807853),
  (54377157966103184662669781889400060622017738185494286483597456110814713028427, 46964391370771210989165795642500636708436087211002415109059745906947423048031, 29372334581279110587881940013846919232911994321513532428011484370825449277599),
  (17739189947708576927308580528088869419060607817435955210260865273563057581189, 23712260966366520852415933264154167238759617771769492063729471354679065275146, 16885036027502025331253725696094210153506591633927922461378415229346312970050),
  (28180626566005412971171878109243244472361823058749796140742692904323850239135, 43167625544909901647770516667946446076067488194291131330784755023267199854121, 19288789022812309797278523890309315617506119864269099788373341955803440931947),
  (26219081633411209789806761981675242638210297659102083406447984145487226410515, 11838724839684362463645719535239317895503256915688837633063405733960070090202, 28790625377285768117780515491465652448638107243741892384328103634497486721829),
  (35446572869981428041729352936459059139130524868970653831911850885634491121805, 12598251211098912879445077278704281956829125621866098612283521922890625759767, 46000185260919474793659139961256538388488982921554709667354675097362840874122),
  (39175713003861007238065627236511546376664399267246471688277547668264325623138, 1166170824448958360009578513366442532286886965036599612432134855812163996314, 55468863751230940907682968489090239103241154277855889945324696271593022078433),
  (54185502269074521979280143469836027652573081591161888438007469903380937516836, 36971535899503285969361669080873404195554274610734416802826902411857149747259, 2323565972993561906001399950457887811646648762395103052488967388290288718769),
  (17516883282171131501473879454569498470733108309003448549732236934627652549451, 28533139185243518477259756592986959509434725515313727696302371196309911567259, 36648307014170212828075039058792563242833437432526271617944213246146633344304),
  (21019231719471311443718048656283143079632272925733622232413890230470527091664, 54597905744838167266192361155531594499131930565780042961185093692170955935038, 32988859609119857854310181066164371730069050181983839847213784901226184452286),
  (12948678428577115785629284622721619382221219336310890717690885031158869657763, 24500817215941821602511241282260418472720559050567637796164625095076133080477, 22449988247327400056571496129177846586143964857584786938529010906691737742137),
  (23310905437208978803023241963322341626883662636589440479813598166325610146126, 44298086428247430795553757340377711490051170497478043665181888475749023889418, 55456963414092952896208196702992859773332388356226112279442761801654904744276),
  (39239103646026309730680372616822946513815121830775563802265418836442770394365, 31906584875620610195827166080213235324485099709324399438244366536173945309292, 26409431859733146908911054830955251917183741484057762915391048584076082349688),
  (3654087060092549216238998121706214667118552066169491478680502074349442691333, 56443117118390512090058993086377576440587301993057849872785812126266604389564, 41913955618369568572118326520640811277669759660876433960890824504140259723408),
  (16626979515903934184692890470277491137234122202842836191397607036582420763855, 4989011426030109472588515092665731137236645429151639250498018380581781034435, 3056407083093060674006910528769740488023901702029479215788489339791630278778),
  (44116560051449798709657308376547609871251317943008209461756848370471767911117, 47900401361010232546710001139462241596423298368824042384173841776520845034105, 36703863875766553314931869610558137560370560085922627308006282219090168377856),
  (4197361045938359862714313580131259817092240889328065282404644630344074221108, 2195733569402896113173285976648059822597519608062255505036904754537922712323, 18678958004238436789876544791826702083051765894073732041127371222073785862163),
  (56958976968564229991620634044397612371477141929880755770702162118770503758940, 5194969090714132355034591939188131527671037934536791080650157721791492992251, 32744543836636345400983265267670222737072240837759170725791898539625090556559),
  (24691437933741421302677742481593943587186470003534161105659784828857568898543, 13831422604275723024103455550415599801623681334671416598471005712243036406356, 42805561586011843677505036786485527009145543092779276581980552555788907712994),
  (34366850216202661177623091730054428921841611188662210448362851908733771767642, 23732008175926105423937647507557890416478676491115646989429827391539731470745, 29764266127476213090751452049696339101049195814696629632556269499074000506447),
  (19835148385110353163384309224103382727630121209485099851903419143643898539336, 7672660217892016045462453831258127635290060757313295650104097222116044350417, 27403443768435300022179262237799396479729068673042519655889501066878681933677),
  (24933336261536972807450876943725009341491332028201248790719665226811917225615, 28457719065644347353571521520580149020049892514944476563540158025665017487015, 19535977116336624014936275134144644794939412002200090704627077202925654180626),
  (41130400045476414477116456124199288259375880679260894643808375443694963286488, 40035970022725858045078214395175488752972976812320776061227062770570370421966, 13672529033416017067816574381950138337111655439177461442118654511519768852298),
  (46741101057183355868441633122872782789671017160396844244921559633381221780673, 18595296268293126430954293095345496134908561942884016255043470532950945913946, 13824576954908923717610477168837562348029685246455524527528809092521332499546),
  (16696072431357758259690759333096910335729292016501928423024984881451855837073, 31951610491911512805159590649678053326928160328287098962259814460975681913950, 5029560309522181455007616125287474734246530927768187893972786554802025187708),
  (11137664839238980456440936636075531961954029635589815258566695737677397607212, 47379080141953703589286239222968980133776348478353534165423381812987990181034, 4355096245537600742737691028513869981582850925823997703507981599932404278556),
  (26922233084873036372718622519259074182429615257117224059842048664590853771425, 30868536327720679889956570100812082621042844104060016588592394157854293047818, 2872131296877759844586541776451154455612565923534234941864684163567508181557),
  (20881677736708734044091920651254015548774789882963094236894529545121709359749, 11793897061710106944511871919259921636797016955612859892223852286753989427449, 51150708311154220385732920400573547663844716734385520113515735190736652168564),
  (25267061276348231741890169872981323986259521591694621932782832932339499335120, 3592018626546636958375906529970998526918332925694222393379449185922443363308, 4795423140868761102427862674874913670700870207848194914355861320293736389844),
  (26099555984809042901353302835436005174499102470757552220330449613567521684899, 10322719385977552153252918879450806505169540823227451805134325257886489096154, 29552750811781102693106861785388059921500492078319232094445076774395476472637),
  (2618321241083110259192209940816402083352333935791321277844707284783402646803, 51357964658053760491992772872516901856756184096192784834328199734608662779611, 38780039277201166715697674914497534441862957077618203352031102688728843811948),
  (16315294732844372186623642749134935480830048627769857409127066409737493768181, 29524968950589225876995312878536927585663370173309900670090788256398264931941, 36489031066740874974087429805692167485390723735604436068111701554270706256416),
  (24772747097432899497295878670164480874107190664352660875915265185890355441347, 14462968668938867999643525450522496727525744527396797685573526654053963089071, 29510755687742066787938125723252915315130763759290856231122890828693234096047),
  (33188060901284863875752605467818620171650439630557304026016420346375424206604, 33171152898058508114387576921329062454400031368325522607578742358096588973338, 36711117901607698187324940609445721461369060038485629280392734999442506281771),
  (31385130415719712275710239624319242946489743166409008159483976601776002387851, 49193749131341119641631387829353081235765730353821440101170378173401512996361, 36161722572338469590154843380629467792954653335950454318008071953941233049365),
  (19831224843742309355597900953474531311422120571183061840970139310805880814212, 2046593998490542526434174369648193942976277788317396527890135802156551687520, 14522628255460102956836840615523976502309774618864773711386364375004835032525),
  (55872570997583340864945965063543112768739889105056634456758554571960944486632, 32458012586052732290991554718292616308764158930537216808860671972566259381306, 7761987665200542185799585399862450611848146705769288932919547254982056210076),
  (40157254345818373578222315095709959100166619648301110949524284460461508489552, 55413701068862097714668452520931896622609378328575343050248051312745888468264, 57224767439647253888036327026332651501762237298632274280449418467883057095661),
  (30991966518090235554043466586401563282231221207363392298228993449971614199929, 53072883947471786534437071878172554809728781568957102858155045283420461439137, 17496505951258377478045591699637880565937568524391626341500557248178955567764),
  (53846738244023773661284808515677031989826251624000942766275149306014349927986, 43463241655546011313637305255368898650403108064970588071858148197481575610849, 55527466979114665725636061128461178616023312934236778716480786451687315258579),
  (54156053282483138930927844143601064808701950398364456881776573977351942631710, 9149110597984966915453857198550824065310345372049066832084867191634797168849, 49227424571749120743626226182876079294280225719374799409731217890234733230215),
  (36516031228268251932473079337169370343573543955844606106271408550838442768368, 7182293408173700911418283966392514842286696553012255577281268584562777856362, 3860232964158793909072893220607206262260998039628697276391365236592357865472),
  (10967683716129974221072940574998615970641800655116475370596605988927107627916, 40692488056265526281319314651944564394820804205197505564584721839579612114378, 46938703181888747594395128775853612027035406841444678177442994192737944824944),
  (46868692557588859252703761287748165377502566854394571249230933731989852892427, 27705015835589114449833640828958561368311453065493981117973139408734126940069, 32565441390761799265286682272893733059440677001157332953746401632426855967768),
  (30769016208016329042463865106269246717824185664780701055564846963908367873686, 56116819936475688249322310938220485548816315542637842826005123591759044268056, 53191067660662284832532960143043486634583401203458725700072440248450177654181),
  (55022804540728625164747451508388397768773884719403909044177457013547507928091, 31993544161503597818033188619696696355985710788407836029387386970507667798161, 53106719449545255461763199222970322935888754602541770227723809513783097319381),
  (43395809422048139172760811562245586871786220842781021793691177497368424088465, 33670943655296913031066681177229094512195237826330590062888752270341503588147, 20109152346653763125062575779613260042980265170255465988168054561925629403713),
  (40458341820304063041472550001325294374629912001947981365217095812355719243622, 26471292089663240508286261217635595379334473896295589299089584502360943166999, 9404569997202182258469328111385245499863437121386629817555756432309371072580),
  (9645450867857178884373783977813726477978030233254190556353655903175932658647, 39042891908228292100052938106887658361633206159448626686900277751437477275928, 16834087377804910228628580757797143508000412826745182377932454405647308384251),
  (37305052211360746017179785598192639695458642561725611529349127763800032223693, 52398637151416822149674623356685052086400237922677338667449220332949606054187, 56986669113316093011690999244769769206991345127217841150058246898304740195695),
  (29416316071661856058322256755265412773748259979741850749876768963865832127720, 20554301304308982475540408573284277640069699292141896291005164915587923039622, 27643112223943299547816128811021578011015078911317723321520538679622764931402),
  (23321702056201363608959015305956016485924099329177677091522779856367172390786, 15917221344814857272646485167647740869242356259033699163707034756641097434544, 7745905441662704395924838360264671860418684525379540545908389486352010583467),
  (9042595364376474098547419416171147154446842386415989675693002340446998701753, 26601723763195631979406220760226945805806590913824552832739052107535871294449, 24142343613773199825597522926552951200107541722464612637903702840116426325824),
  (45363787720606788805812577422990809570579586353861711758850456747426666515978, 28171161796991431656870106910437898782220282322159566022652032418360914150553, 54223442387726022786521337206735346778817410527037155930958182028215650262032),
  (23105191175744824296026210433578467949394098299757753610811683105557016799886, 36186018498453116276971099340871272520869919981635080358292135660821745410066, 11924739949920569628341036986439895561265747770661115613745414628306812348528),
  (26525773940470652783719156237278491231266896312570807613120036258187640620111, 42565241432447327090816207446367113014412521641444642268636132364653887041545, 50464086478839641266090631558297825151969852243613191275215082734345484303021),
  (50001895306089286606209757592097260237442757824413587589264910554087869674612, 51507541594881090799642194394950212028362943637639201759021080682287236445343, 14918387114196777776971715339652122550294803904482686734082887076458791214176),
  (4884696194688916056573340024710928801968697414926794371198243860781902509927, 51471211027889776735346296621124661599215491543728086021657524379407471366255, 3181696471056084359951573482042796084466995364684480600895209313539346231475),
  (551978249022535184178233431316915046385053681846575342145388826842770883116, 57368158872401352212011009285230983699289263405976437399856442233469041306257, 14467883440595665768743354580024092008229429073634250751211597518973708224967),
  (37130412209266730422389091121322623415224942637116548507144630742840484470277, 18123799922700907228931303845477832636193869324717830524387823821489750315072, 45291186439758754610924094932659516573563306296258153839021699886364232319698),
  (48058250228092481485760644292951058259983111841896662331649480301059247890330, 51979243138191577192328225828901432061779937756938592597342953514001051178223, 36377013822066833881061607575794956845116276923503208627984663931994091525636),
  (36347343716454650802292673333572096715856513604111741421803940229901728550515, 33309312499384508506764703275746223553476538504872465648272945755933557646023, 15333919711385789247126873084259830827522039897376654077894918159907967784252),
  (48329837937714612404631499689100034030390786721424617587337084744074466322535, 30010839169433460367824404901009087893759189279801348976729982443442098637227, 48305875896479560131804365995336799126149927116065174772611320096355390044632),
  (12482868907442299038602483222732881303704829927514406147500902803878382372738, 54765874231133160269916205853786116906955803382517031109030045989770664079466, 47150553460545662901457715934729361630551148826528977635887643450197777259635),
  (46082239844977676918133466264429658193279157600003436886711147049965544032779, 1897072510397974109121771880574130185159579197260767840963374189984413341265, 8236416585395342762559717958993579873179053221780038078220653221958675290649),
  (46822388893341543090681011314411381815902740063607979881872737998089368991603, 3082146077454959187761262756886765630703175125079496191629701189292926140647, 26613586142416888961598330991575679087323983850904761211036085452883510032623),
  (18535185405119153607244599210411354972757664852530376635659402465624791578604, 22769158390533687372844768181281299618038382248246053429168563663778240188831, 52769972438403779983255664619193664470494162571710521101180019971265085002959),
  (896202617746811474381741118633160912973590266347742790524203326424184991230, 36921781190733266569749497148971478943171895791216690497497271742031019733111, 1158146277410665385383746272655318368726619932987018878855744832348924283032),
  (30154081513976551947927973672242090980170713784024723823480581432842921064622, 1984154303766345383425699824861859277463060140592871871262564604012232969721, 22493821059870543593004576974940607824567549712004801839019623527214232401655),
  (33663001391816243999067508473116177282804336386052377259677941152029427805056, 2957964519247134286518967978954895266387723221780267108296806182822991278229, 703141588914598317317233154499172734189074286344684965546870071419039736857),
  (49528177627495378889336640926862644270848717574731999242669385089029007955976, 54121560676638365590744900741315883026023343922606500805966523875731443949811, 4798512876039732780325197679153804493006604942851795388229681203366331402243),
  (31282059289416353316695376180029737722638114884439669157957812407778273388161, 2213889083065370699132604098900380605609646185708257965831106845969716378707, 1301613994269680830289684537163820811844737309743260050658295036719175300523),
  (8493912482254520897949164157578256126559859434019890690119088767805112093740, 3104943719852256899026044010441941404541144000974719043910684366920277495214, 10201140923200853080605186251109550334498938242259481812695048174569162391977),
  (43681169004828205822111294200629156668621228671854041374281731103100337246826, 14505637023253957029497713790399730079500072141111593593915783880382120856356, 24448900922609546469020918882092424913267606733630817692958367737101193860258),
  (20815160878665225686909333820534324366587331449206348166690824831638483209301, 22612252519009190203241529687121954775763572451236683948811993935402933564158, 25439828547025375178267475045112156912091716950474461250693070564057420937984),
  (37145128936943160368295994215324281779733058515732353236098940048101435041201, 53596324165060316483548540831491238593810622802323772406423160116431762047916, 13947722206035080466254759535979206772233978515497304607649269565690198616606),
  (89165935336546460138910274125782958195363402960101881251499564493956639400, 6141779939892107547286751537094048634215101656313395927561592079896769302452, 55049047791713560742765106034801319781574547095602882466828916152917289854989),
  (22599949781566918732811915192227360603120891208418242885083508644928183156465, 2600458851799285789894931494003150675189565304823062553941095405847915322723, 35751597557874165360125340497259099709862087553295613857524340624145271240588),
  (56926927592963649087495137696588622012369611983376967172088352011311624011052, 27653976000143439366419101034127401098098899924756287994062743406283336695794, 712833496642966798123068260760672194221739878191122916451290432457814329899),
  (20447293634607875148157303875260880305588723185451507845999520442614854092497, 30006608836962094406725734086024048384632176407130875656019653305144747459036, 36061211520626121653653552253875812185500353712449648007454196031025773255853),
  (57036835944198753693977905934106914376083341880065806501380417201189547852177, 30419623456065245422131286770877095869138910303748908265666128171473931956877, 7379869414884531858281875645107318728073577286547867418587357947783246209973),
  (42218068323018619615415915715504541920589234355736564795033838926022798635809, 55218794094193739140069882812276153356071645708604424264228237875819407178035, 27548519912766033229088155640056234813149765403369344753002767368483749021043),
  (42293482290323897386096113868337634127284782654589804864851846409381521893395, 19123197885135896589569129293706485408014598032545854401408799944476040127298, 9882118459972387801213405261084319620502951360952353757369267273447133659975),
  (23868625503774391054778278106903282293399988687257629815245697535457199483537, 3123889296475968460404182228645153151144286327105706390999634981946146046367, 11541974360225885297245100158650935682669410644888116520406607102500559414401),
  (8295311500431896632819300011826498336032543670655745102874716405161699544715, 33609494999534125074940221351472404899532847708965940143451552785119032730057, 57830585266629222339977294279326365540876627230379838021309197115049773985276),
  (9536597736737532344818785736651238141041709100174429977292716060315675578856, 12432703790685254615734283786947777235640706170496800618066993980149544212250, 15727945568633575087746990652587453970757520237101201869473027955263911698079),
  (9832781372337645617557535147823248750670336522503642549802887093127740197228, 25228468037006001137482206939459152177352953447134380067205645624954263057715, 23732445593950567755938691771042946869370628711594022556745606378883867368070),
  (4401258423387413458124466827715490449104922776857253160364764979405389349218, 47887225345687731963226000625952530250818710182627578195063089606598767562102, 38194106784537112539457121008346739125221543899505752531426706239055013719939),
  (38896824260038528980314297731300906647395448954867496872608201989301704873869, 12744730393675420085289206992006821454507664753030464980727043542342963714, 44541116549982107697317910299352010732583451200790844390622763516514583021291),
  (17530052990068819887733614740491784311356935566371292625637740584957248244873, 24602506749708688346004536925086179167700358305202001102253023627329179513373, 19459849971138795392901417367230852193966691016166544034888733642296855056098),
  (50275576704664379827413688994954214212584828724681451347997701459013385810103, 34529884773703086606518833878518460836065647808544319524980139863445827040690, 24137964781300229275319036085713088908688707725922064274794912058961767348195),
  (19021125265013093866756910367822339301733814292734056209952652236480239190126, 3249421196411752585440513089190502113007837563995063822764885377383973938110, 2948312616927221196804740264943696914679040413000426670245761309515162789763)]

def hiWit : List (Nat × Nat × Nat) := [
  (44509000052384872396015678357016635044871039107280065496171672739614636798329, 27468854328434362329765566589312908140062482346644511576056806334680433259774, 40325641107074710837339731226563971230192234427594103090050485074796656090909),
  (53519404526766281333380784655047679675139405200934982222422763915839824978932, 48782917993939454235158253987078710590358481135530206759723870580528518848137, 1775851876255076865250439090819839822012751186712274746979862375823642915852),
  (26408777117972324585887876957236072569608394230917648359331625766259801580226, 31466380730843392158886998977462018671308818460427754746613991146006771787954, 40030999282077752612254113388087895107691811899639768614581168910019409396842),
  (33836368268996212438533671053491390701177521807294148297529312779754937015724, 4537409962026218494173174997606843241801462575238044887059391347420656732781, 30662136312150132977496362691439262281890990792310708138295259995849573865239),
  (20578024646824242685640416929242281561818714693021271940141414064089185015878, 47483667474976823847235095074089628715868934856641110411022140697199104936857, 25878033455443583943392639763471671170963383073825934276531319035787962860543),
  (20747172357723044522429677680690814805387165130604644472505215062820072061826, 25522003461870041065227436373653693930844204980753062569221875792622340843779, 18525667440210606912986058776074862116077733805538071752424248198061424868459),
  (13845332557198606474918857301473056105198552785887020879309206088655908477998, 46281919050413035528199635999127347046465873170990092839476593664223837054425, 21761799334333962308966839968217893299027985840490117830743491827472215881131),
  (2890157409290148487473990367550750023234293426963682528512258127226657400347, 50080552959110433001820825418264604018326044362185723274255825918231786484520, 39769663361029767985679061259821930771824600047181884901563609038054632967497),
  (38777400543008724315803421873756615451700115122074922025625971598325407331272, 28651460638180099355043976003495454996340355854143077473513339991764727066210, 8699293984498249881823832276572891716242660856755979449196373816392120000679),
  (13413927262461124026103375742843853789277845913112771304629540038066335037933, 33637314181876746890160814575224548857360133469413146213753625539219143202926, 20498714734126245810373808774779084680647492302215806442154893692408713542468),
  (9984268847632929933729608528448689703218196000685893485214052433461445884771, 1579905646648488750457918196891051640745492507517525871280817433867727561067, 55856760434065933281837730365214570907404216441299676642365521703397566537289),
  (22598106328104005794329684720232046077008396770310226889636864316642462757768, 16199565040884654441177100819372301056257535791621793001973218668103733590879, 51014882150035571196479582849060610986642828613869448671851006392425439224353),
  (31862608150815653786710027214795645683063578170491136875447077535677138850155, 28437374960677356541952707254753795318500773931352837286409216001992689345605, 37640676972885110217976752329728846950298138230696830302656307135138208962927),
  (20583464358352754409135821310453244822184912160649680942121933776939414700709, 47291378833821255409352169117720939573656291027164980526012986276348998362549, 53311643848922643988223796947039605062002432159192373526959476546199992147763),
  (45652830148694538630325375291573233473606307809050726701293883676480852306810, 16736799855445073917741190771353104681597551870616061674354148270477453721658, 15469902669371177228896139265833037922881836227033301542372604141051150503880),
  (4014218846885453936504608963612256381961504557668707399578505815423238265287, 44078625413673635355870738197591920501056751073699806782728052598889603851864, 7272282697748140390042174956011717139620576478655707502933283295197232430356),
  (3819985491695331457402683043289793987718523254547326467579481635190413615601, 47405012956308704896530848839851900194577116093019860672957718604727452854110, 36656082718301750792503354052628084491562796514607297969875838427638245749132),
  (23747078569751107970455384571840168126598645044565828396681004286724941351544, 35680582861331229823303159776217044142744526777410647173235557437466717875503, 20231337251133630173445702831685422740080732108340878328019400561588833377782),
  (56727186213051961723784135039020745898597687681649448032278813353475598006274, 36689051752741910352204967585858941736889147612421452294794773328618224659001, 25497188472530610731847733780237545442430863501869249657221533661052166404077),
  (12121983505349993239085848768181512885199267254975846278768956975114007341207, 10403689267324135511237358163787286886678001348564755783021761333370450417684, 35837769317383681672431903750172834290732889447002883421209385843905685091523),
  (17806685415461892987968252992117394755177409058712421355380240920857707855960, 49091364352406538975087395114756953637148711989921541510702117758660683561881, 46986399453173224428797238312386711970769427812974636627323911798002984419174),
  (3803132441303976359743503428922381682742481914853727568468053065940129274920, 52883562004112958958787231571106003959111659027966560971039014805316161618569, 29914504205679700777735257010444248910141801889762656147411008438514603348259),
  (41510343519319953775014642523000194243011221380472270702069078041333873916697, 33973014332165947892707683335971480565842938053707840350414060333113067504279, 26262438590229131897514395545258137504534678044898434409188013178106653853496),
  (32939392821026940842041371555948098772620061084866585468341844582955528824197, 35489853097670389643295046259609017087427057675460717110371630521981525546849, 28586503230192401455668053448812084121597740480781853118748780010969305697743),
  (35584022961753069757917627667072486364755925748253955846480134140216655848872, 39954111339420974508373762652589238757706938082447139366614900454501934816510, 19392194585852100332986039791466453416927574372753550244088082547777941981245),
  (46488188576523159868106787890450919269635406112893302404484897969235438261709, 14747556190294360119412596427343820324147117626857829963377434522992046030412, 49083940398674180262252504814704153650458084404927006974963911269223546587299),
  (22294166762278238553230523007214488873889746055932090360770094581294577162020, 48745204037634998472867148493506945081260420050720063436917135635647671823809, 10656565676302377615660156054772666071293759440477956316243942365131304424890),
  (31005137010669710532020469812996966991733594595760054268978541992015134743696, 3961878094060711522301805996918540051314262245959326841613083363172419191783, 3740864385339919527359872203130048393352906966360376291210517939168680298230),
  (50698877845561940197270095459626605423867756545314966937481211872834272202210, 30642696279772388108017606442255409150459031451715306428172646595514486651414, 40986079457224237567637617928079501391030400854262617680203262540951485843058),
  (57248803984224101044130657045024630726051930833896005422136621398078875763179, 24046400815814150994639286397400013509410034354628394577199027468031961071084, 21967052523741194828599581173237586317571908183814362894681441289009929627430),
  (38785548990526580374094523215956802200413265347450456700640948740678920294392, 50380379655218152975789685629653079838141452578538115183274385630337436516005, 31183464640494841938165709553556163790253798557908275881031584313200927678389),
  (57888591800299758957378595876739777665818382042072571769159706990316196767023, 3408047615551870757936407910099985849722397776374015077677634163407786454883, 35114005380685520733859909032108072697981353925488601445409819185962580812924),
  (19734882403401851053217302174506331019459010679651931535119181586773680892948, 11530753171709729217183835796253698944176899771317701140845308804312289073659, 2652884236928207590017666986845449214608345033652796959881303648508822860546),
  (12476350691298516776757116790618325719768947805478951653036140947483640427318, 42168595660632072671682540540687784792895959217478037922652485192949612572116, 39019812578312984241667872149680069138355430370682734319788609688147455947441),
  (26023042620230770144182423702676495744995410693204085411331758847224705758675, 52112446543652831280729129683798924211367173747631591092192664913329028265436, 42911846328324529623568095549623781234916907781486052495152235014594932264083),
  (10542031924969609983977006039843200751669604985324000551629023938529091952938, 35523187075814858209344223791645889318523893792478654215139198943139107581154, 49980630795540255306656086245305439872064334412459615072130284556123870324222),
  (18165039569321039957865951624354746884573897550438223400871817170554788725424, 11152321695302623928477742239951291132057986005185876515651995592327429714628, 37977090072167593364827195639740380456520082690537345776369957938511261834003),
  (40934092140529525494020786395633824657782616611641045212427625894008979209141, 46311487687881602368201175627184894612997231805013714207005002229272533423301, 48510186388852621431612889037057490325932452711856273587533876513776763956154),
  (26732182973277878572476635317164525931391738905214250276866234817775815426958, 25665517211273687073726184452500831728033782303184572445680764310641453499788, 34627221121026601772584564891640693389329676542699337376992756865314896617549),
  (37701713298256980503484752758230557692395248102032640726995265608028361676482, 17574068075718211598464288204866928583998431744809280127486950688556555567409, 54302664253831288123925510827169682447836549071550651816935250641602033486588),
  (52237287900335609092663182934589964537301838728299676416559286912398618663452, 32382430321373218641026411892391878468477304138121503115136593044050043818721, 53226827738908150149006669619477402824607760845745274685289576800756649673617),
  (9899881005645670153019144630441313256851117467052764221251059001564095197537, 43838589150787631440137368141625260583097048548192482625931400310157025639639, 18045570799963205876431934040110733561260869982096803523686842238693901097458),
  (34498225914945687249771664885987098342652489487753081494001439433276390810690, 56033457371623111148006159919607667278983211854778422128601423217412608636287, 51762386982319554473575636426528697227975987441981922580139981319427612449461),
  (35434422628781311720172559426762377608858864705129684566515198698346726200098, 53792493435558989153984687698793740424447830837600739694668698308551506243593, 51369484496346087693022575391193494386962737719582137713718933540984825615409),
  (30722902774740621837124089843679361062684678870920373419442603100970626944852, 19892453879728538057635611319324080811407287861224058668211645982634094760212, 48525095871474025780726492862410454241267884227521455903279087730141252346194),
  (44110057574444817301950398973006591720135497027511138279837776317765558039035, 41671574125251278693112382579582112610223574755205639030478030604671246988214, 12557405931601380724613378915200168485729815352218907778522609703188726338808),
  (20328561231725076337353659448376911354453758452633637500894278936986013511953, 48265510645443266502907064134176571201702742060399177791263446232764585309542, 23572920711641777044857236931211029040173761178384176861106744249809024911600),
  (39056663096239792088684573072013860053864097224836603247895660528626246594161, 25335890030583087213170486150140578514690751815210876275491971733255617546337, 35006705148330703980254271553397275652918257008831772712772655241394870739538),
  (1439958951029175765077400425509188840388396004517463379691798240075367740628, 36157843611661824931664840044216862793293057918888469742117508686435137452390, 44907558833427237957834089833862734989758405615959951662213835120442509870857),
  (28001639696433150868260878232208586297819738613749402073039844868558950139941, 56353584661583845252044726345531890102093563816615722850266106319293638360868, 8733869442953363721646966418986468548777259374569507646277618829825058769653),
  (44274302650167146220542917198844551205908563926165791919956107598569368241610, 12443639745831955618640968191755318146596475284189939644560328777263569236239, 46684343608820843490337605024283059017524937210801770554940246673646989590085),
  (35077408234578968478717816538460989952497075300517611946136216890625075341215, 36107636129981007723625349631913961434292352259292112819236074122547066408502, 54668859811447495878180779901568350671175460205671681165083627631798464052597),
  (24761426489548519045305449212554710820351414311066148984653577055629511195730, 5939787229638558532250647647613667577018966113286803155979001627577231177236, 25773394550470638416586104913100960253817489343335568531318534232304327812070),
  (23297195050377052731304641056805969265630606117355809128186430969333510977264, 31339178319004914316399235002578769080511756200925854571527060704595494830431, 56389175764464132780785572145743825321862154122055986938817993485012558264703),
  (39044194183701390640637122824321221165637562486028672521283515391539119596438, 2159902522408142609882685838042669555879650298083673744089098280824917721473, 27858093962545914662240337530479520366413323661826735844957810019633351481162),
  (40019203956191035257497732572199468141209906909557101625256585940030405230724, 44228014629547844441400362789487148636429154469227559097908491603693503733840, 38411985536774101821602013644343416181454759696112462763073113346991125638805),
  (36239685034187812423159527361089269441006078893750107194217776255555737894208, 56000716024941562300234845063874480357548445768521906555430898260565096225708, 42337872029265440060576837032513433419806331182486893298910247968550477557837),
  (52773372852868204947234387907957136176499263386093459709702402197876286187935, 34463492980668756449450329753665814752948191806334964717048979581367924495972, 27501701427162226003857816598734553215476438240686978544202531874190038870916),
  (56863274394055024926932632045100317342692022313495114219837819394657339668075, 18905870432875466876425927182929030158896287083652722221389431815299717666477, 22911521745902870150633638492391291932782795264990083074643095572378711240037),
  (19122647272489092816177441757443954688460718041402391615372704790451438919114, 56160374372065726800568005942988872548334801669365353309157146162548833912970, 11645221751931446819439456687193218033615303984534004792989223850546539231144),
  (22297961757219470505006484956927764426478053381249215126777945328857639187580, 5246737365355558465767236258457718186375329507561800764526163530929306270729, 5996744042805802051352462249836754597005103404087496847069600457265027532505),
  (41526989514475102681266062142755995871808370053190278228532667515561613025955, 5811379726098629255605008205100620193950509192864140683617694547412113070237, 29613923674594799410844282189003073137802747940631394532434981329727020957485),
  (46953452235486928420445927607843103089970004094936071085444394388286694514257, 45200846522131696173071714323026390548901287190196176200261427609274222541785, 43998873781654433098802221468030750100736405543642598701150806090925559074278),
  (11861322590456327768896182870269749071689968084154384954545276525313744480711, 42815795398935035404567795980987020094978605754816389339144390435954809773855, 22468390342678840543288826722371049053780399048433961650176907748565103797608),
  (19246832987933827402947387958082070655465056397991515873870985768205902183862, 11649943631374037728879872873885842388391575715398599606120818562832937339802, 13593008448930554918490598566524992113900882755201299766683377463936137131137),
  (7191928571805660951314115291780499225757185092404448986552588682013863241779, 54762015848582357885170535435206664100428662194404563361971460342107672679797, 43327867899877275845458140981836622329870251212320162488745001768104887116489),
  (2261085616978397081879460152348942401768392576757044124929098877049916120888, 55709217119864134710934675441331165337689290057270966641168956803542183522553, 7869667445752628504425017501759130639388614052903341452302304006888355317303),
  (5731784175495211414265571428529689510367366057679544881635100864246830775720, 50469445028599852281705599194191400146429175775676957057384005307594816766824, 17481417239163232575599231788308873232529635959219872300080616970343582872968),
  (41524000003004250094161977282621562447514848749063674483967610849767989268383, 42675274935036313690416009026834670804580467576965677600293785892816592283344, 19522050038356645160746122281729716685926629180210402523615970980343227293978),
  (101664142391141581109268851237591917106261197948665759177739997327554979282, 6688988661296788987060726088742627324413053017748890427640443426462734733742, 2698016112855487218862480426185277201712848034371880298680535886154422154361),
  (48676034390039954058518811393591077610762012277289180089253170209516786437440, 12523634217523574265634689813058444004455414368718466685851419651667456792402, 32122608171339340762804161223464338129023184932366119583042383528057120503183),
  (14510545528946200345378580216407138988798600802839890274276692078593767986249, 39228441148113079772462590229830235496412384073665073374132518226906437262388, 20028808225880049420124983191801830188870024679600811979843184810855681233823),
  (7290962051043827034963477254486572691178839511312957987122828167840143089912, 4491653671458278050866515543507148963475568721369706261483294495173764603467, 41984666626632730222410943137528278590110196010861681211341867999650336839926),
  (16988011426283232045542484744801274222789941955866345287943637733449595558785, 42775062033701306922662727542118911827181392655047992519154788987457337160992, 48628729829961072008053318775380526715315560538004206995499823585686148870152),
  (4704966304376870859173001776547154154122538116513592987684974256335642140481, 19753809100003085880859309934820645604458130179131223701901755959550332941741, 52828488967480123476134579436142857210409877942901537879864418131938555294443),
  (51577504365924006980122636661773284249268392167901411199572679752699545258071, 42907708863376074901392926955629914203372240343427662184627048332435641364670, 39879039669539247578176869466907808709557486010223271796424175857062555687927),
  (12482253894586957417359931653837149241882413359944049310768852197823114255659, 729537034670679803275977145362158833818878072942395741311925110197795087751, 48727136922750160297845074272115885237680768989878465140447463444346566168605),
  (42675369105316418336651100375045413748422023259554406286195139822226261931852, 2247071504938471685431956543341861371038042528380309534301200210758747672935, 32844234087102655890935537734180859233317642218258600672883157170323790807009),
  (22199326565172972886521508010211367116762871504065353830101125163641286956915, 18180421337267910683323963096279120844025476393212553802284301721854029837940, 15821589218656925660755770105227689792938699126772667893189545834623116816611),
  (31428941544736507811217914710811021709819805465996442449367255259215616081820, 44943373626879847430078921636086199877807712006181755054824330821660440794990, 22067356304703056820959173058809457806661172335955407026172375637429122960846),
  (39978964362550541118327950543264423637651755685769124085115327091877369908520, 726532308655745427757736956503282803718173134896037541747100104792730385214, 20464258848070323073666158102438061246776082559012704774696090052498966365857),
  (55687603521324330149353074761518093837942934642108383201071074278621652589510, 52157894919743213334288749371339864527566389872539453161358234991800632637466, 29909566767802308540484249618089217991023524095960257855685942884769200030984),
  (22250685846815328305176744623431415257069657115204498882843572716480320238022, 6200525045591281825953350528767300685589657767168734683355016371034112858422, 5794892265116364223787189558614921253503710449607342482134388653455237077989),
  (52181642166270316946628489176905581258470887193503772443067258540809245666882, 10467576978523848869570943004208633044024141154162018754807806910259962669323, 25059990834544640104708273786397194815219601650381804522044302985651372629996),
  (53098448429616626238141631840555719710620139566570936812357778738387183654655, 22417145933159668100598908828322428261031639802160767811885220534619980323497, 36408941867720496632544754879109397703504825601460515894379720243738121371707),
  (36315850757066217769557081283601783960884676779420160687017384041557687250295, 30491004674376742062632796149059612862060046882175318040122417208449976922862, 4932809566992141068496195627552805845249021623624755391830152084662024331892),
  (30479576277662983512793497919166035695106609064708785905210900561503123333057, 40192420540665249987870355650577928365241557604433525771933726571892219204, 11917798790888092234561489842405801233073632018823307361027271123816619888921),
  (37530032751112713533355231568092861807853948218618073326834104179803136318345, 28829260195072733564145226156242381258525053548810626291146129409997995781446, 6928888944812619086709179837545199869002214332072839652063693975634490410955),
  (7807550662375331657444890188592252131979890174736764178509231011619397018640, 54258212066010401425402701793750717756445562375489588812571770065550800374102, 40265677856014458258272809393918882552118476872964283677859025644666541083945),
  (40385771416635360573486993685548204607263415992580854821271049155403921773847, 29579596340019430437435973131831351201278861446896574209710593092319268402690, 43855971505625523092133688673199197176733853653023936226602706440253105673279),
  (7972962203073273485105476299637301667113153551365791117949529348660601995946, 8272697999805962999051116303170746962334777407629769147517698924333734989485, 6850081635023970649198443016488545956098566198189072268140323916812102789626),
  (41231212491612251337958552798403369696792373822674421057099051045145933211782, 23914777262694989632858197604862532639660688927383982682493662762082259532182, 17480333191216841106771575950954636939458857988782030048717030603675340391951),
  (42895465562023786536056976782736485828874358874554912886465198852001607587361, 8586895417053433890763127221320460763812480585287198299631191509309455066030, 9977399011891551735861037935933519379522199278983683320336569330061249554957),
  (37017758415293679514021087258282936262574070076734062000712174686312949970984, 27836223533581606229925265698093550600335459861692928738794246069275312281397, 48755641337020151114861555328696755020833442237609082644446776505221845675105),
  (24686853362281095435151875562178650795053488330172759982926752062182665068567, 28887224093469494265548414530421522380600296636293912529967114422276941628321, 28167864447242588812612394772939188420690892439891271765768720732266690017855),
  (43478902076024272437161532320371501270785154222536379515366143380015213731665, 10040522787503412688750423505769917651058287694362512396624129212916836379850, 24255649751678269590686770464056062327682462769748417889427946545136089107197),
  (28715792014280531161790010248126525065141374103846552366037669268498420314765, 11456427245996986405257842421068619695608065918053210807718585602524256341311, 9819338694008457532957642492429601546028616429821708222220319934550200286012),
  (12090861787907423314568723518321713760581889276517618749620945934302906966636, 34337138335782568490440413299807655840250518790715050887986735495052356065014, 29879858139026110428438586829611913848548342579592081687516984757460431923712),
  (55935832097083329332448533452250423820116662308303672112528430757474646879615, 44808236874621918755041165431028699727730870112266149978874757498243307095597, 38879068541280649225856759654122897080151623900258668601170463640881231918502),
  (18232506856650335394766817041865094936038617108476969636239113114423643151206, 27045495618808169077323748481868822360024272387743698267929203333195793463711, 3667827718116734154558498374975933352237182846150550124851109710256332650682),
  (4840044883450774400909078545048558773518762641745569717057867134992541103684, 39226672570092559471418616263180439467911290275697788514528660560664941762772, 24063509948475149516649861007723193116536832453045945183458883589408163546090),
  (46588501900056764379503139180689496250908372936748647280936570460586140575105, 3393046480060786376634811901131597140165868639228017544069386446604325753875, 35698698566167866005922804930458081818417630014343773170995313824629569266720),
  (51593182376225343785320123703887569650834697970784273199783272856869685734926, 13974451154964621986587966490494689067825776405113052028715941065595591552904, 19599435952644189967132363319656112537330095803408945792721359661586426359330),
  (40278033059149843051327293402707357508578064145438811937986777522078150513960, 52228994825245742466834870243521200241523364512771109159590341674963620040595, 28716423815447842279281172755132023750918954337140661714996670585773047945523),
  (23537534862187914004744077108997179222675786228587441931812895525900165985570, 37836485132172319193041058845637444805920531201276895341363312893391322947553, 757646088001710730646208656373188753821023686343421307765891536208873941025),
  (49853965795755442476240846634526497733487893115221917633697728421710541671296, 47097954219107749933205077406574053234852594483269141152590664836231571310459, 3285229896116322000171606110124092280515195755336499555761987202273444390533),
  (28046889053663807964802735546900433147221714239756126044561395277789841304542, 26366378758533316711653825522011816485893112195381079646619661571337170913569, 25732016256010768923728052580073211374533500024141934665405199764520262033693),
  (2428859473526279269969412141247709351513968032990051241265696100344448154652, 17340595747695598520108524217648410226041433219777676662283334188126124248733, 35139446758454344179036223514515406487401180296449628200474767852170991343344),
  (24696952259637636916152939951620097955595783295295412558450142301549018319471, 4357484629497046404344219863369805561599582532523333255599232621450353683344, 20253591854697887194295350720546660592283439173695534271302647592347352509683),
  (21523651498768367752934240829826138633790876605290929323131268958886043209745, 3959164148385063594545902064516956443702989425784963571311376478538179840287, 6333278358726297538134275224184751986591954229253557643332101126290282698367),
  (20418445251071265984052083457506884845290470773525926589181527788367151721306, 45012737960587209169948892809072968339576426926004090298029064572647750927796, 1786734902129680479037409748979259421835338325711371967816660695848745651145),
  (48133375478956748214946354974260410873584480856575324907783019803289244451352, 57138538513220966399573999707109096749646547047132932012002340285813444539481, 12039564377496258107125741709411559247824821306946664012209941205637810278413),
  (12750610890027143774510077427828947291098197601932234094310283072506239331945, 49549773196880935094110679857928435202942419214752356153411480561088867095886, 47724457559005426404536570666222486438003606831798690092945277050665916606967),
  (16698997919955702567490903923771343389836541656441661734689039132402618097582, 27831826580547188426809936610748193918491268252870365572233065877940865962410, 52961407500864817233981767153535215717188685208655259620133644300901028645095),
  (6695658078773934395207344604549147443539425761015920972336602287841395704609, 24930325304627635100574612412360639864339199864412428435773213947764583859875, 12242254951460857665512480535834461359395141927508985200870863865282344616892),
  (7247387609641842140324246449589372557980129345628329184042148356512530544021, 28958787506062933442726855880093184572329641976319355383328406697881715423209, 27261378335216388540048197548853021701370374856821178221012019344691886631697),
  (4461875316911364891704747303404381251017927067254460465271973735808972821546, 21824489997887184964440421473097467504366030505893275922238971682335810219325, 48278993812594743098482767951475647158010386432947222877900934217654928139612),
  (3455923789856385936712786971863835632613416446777242800336923797351052622766, 41913985509757847922298378412311434168204045255214862860799450967142598461531, 30982363898664034406552545732805639823808095426058183387026475182585620289494),
  (8787719914938181421895733673831783985087580368957232351615401128413269466273, 51788871469411263981155760936592003028806044865194278579548290180367316817861, 43361366216084575833914794510634717978774426866512772878043043369661541070807),
  (38187799120100389146052028459588675050490853179927307994984687734431191628555, 6163013034956140149494352375146535554345539978326825887669526063914299343094, 37360958863745838287701707520588822444140858677794402096931188199089346096690),
  (46141746539551987369673322846997425210586480619613629390075620563297448567931, 34086946378813899779005283422217931292989001710885702222361324206821114533166, 37209357890441067568255284969218212009541891582914376374783797205137625316214),
  (3341090258727932368140486825182890562769984053847900772165160395684743838209, 51134480240226469193532960079312309348426155632999249296036529356417008624704, 48046529818123644391194799162351343246130433973066756332981955909916202231361),
  (27796243530517172309532202129355148377309354835141536392016663398268625153562, 2194042406070137942927741652718553751290292904781466245301428203735564539618, 16372589402800999492268489659074773788691433247490184727519443137293054520659),
  (17658061417386893708392062912323886546329475580142554496822755369297773526203, 48789215130130712044987580602855709583716704987299037355325241568418343399445, 11728808012949872442220275979111309424293603680157468612376070590318243688590),
  (2460517025711466184716442162897026550160762388193707254644117526484645179028, 49232549185687586083655247413745212285159488312208936854749839212747356965379, 53995678912517468243661366913609299475435762005174951302243454313648113413414),
  (27047006994938660392014560108658570016882774681273805958312883688765498194440, 17914066737516638283662657366518712608088435272546999965936728348507476897328, 56243979346057622992592276745512963463724006229209971757535344103521482327833),
  (41645038160759597076408493545308209932535668723893816482650927071241222808526, 21230538775043449514732387079273009507815646525808719154197801844354560839269, 18248666893800194238389587314759301565330768590364638296478582387118441174320),
  (1265473707077608499718392582402848790187588773278252145923007386541994647688, 14915239983937992778341159408517391618059400371458512703818090756893985054413, 33873783670359827389171144375654156102105706296535568869487585606973034761336),
  (43549474483673993069215077595546430853862476185577284928639863532868576817895, 57699125114215665362133914457967749000579710387946983566374711387488444685704, 38458288793597263312959471957463657689267608576978228540759237426822888556501),
  (4798099016574044168840346623207054595959778231495311670709890434675188370569, 22003067917992481743710669606389830109405276537010714910297460106723839482639, 24213141368202659723843982144850810810654207697952217065186688981951871287516),
  (39029685168608937137640215100377287201920110265132709278265667764557864942085, 798393707529265480611561970542864647940897434825248973856256929821491388259, 26876171077860948691648373216075705821780481405038794351537120097855647560887),
  (51068429100649569589362877125206145117113146598574484666380053375341837985793, 2425906033168048853514594212979828930368926809144793108280360362685473639594, 36360143831066462032938688331400769671086706221912818934341880537066200414574),
  (37769557116617166211965151954376193162546450136507884655189852512850905419841, 47701885634317149478616283713138016962057924872769911377962296164491588274588, 28890448695333790064842953984322036521516148852097553782129314534767229750056),
  (52170585746581085582200897305873395065886430469053919462572839979839302892996, 40748360283952724000243416580099377085640364185583739330251843021026968808414, 40075005303120957848541683523766600392158593528865583967575975945238761336727),
  (18518756320490415624659550654642519255911998844118294970915663321712291168996, 21226404686797754840200133657767422180350460489557347417283972265688038148045, 38183360434958162055738452557525996180383067716069058313580725577389503658025),
  (39905412580641090484808518137084905021649892337664229336136444443467144832489, 35826578293166024170607347046749890160355428643219270424578854682928939224351, 13862832176971117326164635662950229967823744559050197401992151038801218028980),
  (1760540560291589270021048044347377469903151325397014033675431567848557749, 27625355639892108685935742422617330559878091740019410321855100387121650976724, 53245616521961359809647383737518888862536800374205124699154173734739565383287),
  (53853128555036832779259326520984561348785982391457544382590051954135476206776, 30472348301490760855258317728210974399096573701707616356372191629869565547486, 10000280828746682843625095354339406431836128204578355416614357946201878420886),
  (45614735805353425477493439299508002798712390025641802427171886075037175132815, 1238185993249623330656154075292090032981084935311247036155548827453944160301, 55034144931767482257063085829808574772706773218504588768208296830593248363861),
  (47138052035492718852561029780150005236214359774758422767637347425617549605947, 23905159952568444771685287326873818722238427271273660223610680120716779629352, 11128513380981537361382116565556072963089971777098533577091975262537648852753),
  (41828011674524239573372813012772630815745307973236174153670688583005170063609, 40762596268873698159687629154877597605910845970227272170031908167574345198929, 7113729741404878217312821615622640704325351354068557301361647163222155514827),
  (27032640601455920640712554778085280429688663250391323650670556583035157357591, 34227108140951688109956348270132442221337083324205482127149340691802645982283, 48100118977589210570014040327754654498962512359799403599174305932896713267592),
  (22076080962361043163825214077004290545422977618070309984745274392923488594722, 14080015804457666127140018522574101029655538892309409993216052545410702121971, 43966425087351433297728307240562725802404729531019260802472564919510041533891),
  (35038718112183048281912632046574304169150762168529243846620057363637592197828, 48071081691133183137173876226722740856664082951584253201090170238328991890236, 28094952369472817846612751471440081100795462524632709284765245224433120541630),
  (29232681119939869929140984681277463490491962881070653660278085818894472055418, 19292929936836910790656470442848785211931321029847259328708029210458290807637, 24686801603420193758421354694505962456628815940527790312164481807903043296866),
  (26091679585401338445229738326084192966321016584783353562672542236960928909744, 46404190991428083408631989475856433208854629919108846245490651782249169932728, 18233935501553293736527007171541289441191134806357038799631127538479866220056),
  (10048433922915759955605178245097711491097990348863824179130530954491949096270, 55965453048152042684953895581151275764563314703071035810278455975825976408682, 49335085607424542883389781887289133053913424416653002752526339554213313370226),
  (20031798916036181583562057213752981055494851040273185640363248095557422605465, 45946220253714185210538971540914772471880046663274403046143037462280389432479, 22134594680170694574568951246077554556111716960003956447161753179561306879889),
  (22463640313713382910511064848362046758154772500987922762736165986300566853336, 27424578466469913132458923805856773086790417258874200284379276142460078632516, 1949832050620188138268680531341230353785328373053924041020642920374612665872),
  (20726430829087434793517991164500265951785817130936498960224887874812909104436, 4613684497206355628046099923615918981200898547243654713666246241861974825278, 26158172724711897798252872241954067304571530005133605550801676874855486092034),
  (53552772767364616328344055898567254282531323326677409142852960178016088232414, 16686067612453170693728033600945171086241202592020183947716810021501718452375, 14551517302777059922461229315378440717402596606506512082643696547731426868158),
  (55479476113964886047235851460288309308038516476306604966230961508177680723790, 23979615213505345154181177020813095110896344539667644348095299850757668329695, 25424400991001991203035035758853370500307143705558534381975092570035954654349),
  (19070387480132438316617980071141428119858080861969692947765916346476263639932, 47958095290183480912249104391736952489832481377412823181487316349072758093499, 49899622615216414781490753619689937166513603122906333449151900674279347362591),
  (41612743531131962035870042816063552572767230035412742887483651826363280365450, 50319308768105061892082513058785755328037691183715120881198456810566287223163, 54968426235550154307359756241354680053139664731783092177530759577905428682261),
  (43714948785144227078993145922834490481041279190505572197381253537084471649359, 23518758780949504507278039263026458435927843102781165696224500766057593991723, 52542645673389965712818068900330326564359547349477183995509287840558420388468),
  (41091721313244154100758813711222759607852848696901418653832149680193391863129, 55768334788780885574722840723190613132583523080456559491198944833062333196408, 36848844051492266600881984418513867094150936982644969495922626764986488253247),
  (23337213243606921077277233113250689633581949417049199924078076351601034042719, 6016121821017143839895459905185091708251094042976361051572866983709408183007, 53074890091239048612858299326592539705604925962392736415315026698130747556861),
  (46719473391141341866551610315449737103159742527510728909635287434452062205735, 2068659480553306514337052602807282032614564315576526981863432640385903361706, 32796364037841698428180938074874046864045480540990470707581069599010268354717),
  (36992540158294087210997835908958505027644032986807553487332968914735257030854, 27851231629870134302841520636251462599247159462275475681801708093996331842708, 49749382043757781498785726466029737156588878543376042755139403449588740644846),
  (11240825305731498980812557674035464316317428899102641501543396813079494947905, 4680774445346530109038508665148177080304315472380765236831647778941103079761, 25962442486730790917782693556167940559350681326003666935005228849161006300565),
  (20915666098477092958101037851176074788044597372593645760775680299078571208681, 22260133603634762452488145819954315933571550762064085387329141768975998262597, 46196604672455396980320267446423324257737749574396543582450743131324623907134),
  (9262403994554070023202999897637587877009394514327498058426861961020283564908, 15242707582911270993941381567406989877575157537426796911909070928661306424038, 53506847856879266340392043767889806850246418036348055145330707122927779835495),
  (40198016100532411188656144088402342485267419445554802997622182486920033213568, 39378392467849853501794372782652114764012097082665891944443771692729180753596, 46900494845558952421015332863424955962692066123412221518306901797488211903550),
  (17382350088024568739384655643799959019063116650286997296764076940188128919133, 23073511028527876939944476813517878569103069460157559036091630049374232054581, 18222338515666901824971733963643584792597995792332510587233656506763184567705),
  (16978647038114456790149700449936677870213006993795302164087871702247864476504, 2471152240757268278436110156797202141519051098074583155860478420228059525221, 21258605803183845277401929865738539968285534383309652290732249338519411421043),
  (53600518666086093293007792845447412646464022299700518628385177881135720510692, 14657324464163111701467065129250724881339576362513028320348853833404633776183, 40277284076184662073215968562370912415691519644513736677999409693227256475076),
  (37794151381252879400078336361678264850649233229968162356321133165992954274616, 30135999132765699038451671854134558816663858263629403541202286484113790984262, 44490032815976489399604814758652573256061856759718596690443359954368145649631),
  (33707481118573641410321399990722881360726228630862865066029319425797374392437, 47175909353617548632395526053652376721837316435556757132771342161383453214270, 13474630263795485905903040226252276460410167778223985799554497468464829065658),
  (29313965660946211282490461823131071437789633741383036901042892286407136851181, 13741658481257684297581302016379963873889330404501142103178126101562275680690, 41097607642905886405881110686051027362759267747186590498630497150341113393997),
  (19108821112738646697247057500731145608529373662616032501117993987316957362889, 36948221730457980411787803602346000738997670702739562084431819850543010470055, 33363299186826752608464279642087647461148706373524953505731142140964966383271),
  (17566840189620803383200066471422183620654162614563322963226041105441256484, 33564379726947358071785042967582543422025013391839317972482990995186225758249, 31074999076616811479382107365796841499383552250010017436468262122831310699824),
  (9002024054323366879196305283036059128711549608911234803409955691494910641411, 3266455331892017663533916350086651083217406258893469782116357593076410533600, 24481709628597558821070054853254005758381250824642575724077020219098279309029),
  (37135408764369067825701762277588993377306362715148543488805641544383562714829, 46955957558196760559115553640778023614594783273841243134727969878039577386998, 1292174314579110641695855585238649059336323343890512146611031847580687823599),
  (19911611099942076212515703974358829415895325008692069411469928570160615815359, 36240199788622564681967533463531796724190520901300156297162648463686285961073, 54627350929304264825802858879733538626737305917119949663646183959074234941431),
  (41991928064507009653732058063110073047214674552871322788630340203038639080749, 30852003951383597126123295834544422196185981353547946908490825027773935097824, 3195248782999724100630460813259441471341054216417000417151959349061958853549),
  (56363175466966993684496596515856082627988327189355475708541755807665489480474, 39601551283067864267672082466276670130881227889125481789236165274131577380685, 18000301242034718746239362917609397520433878992537073901839665789529296534301),
  (51535504266793777105584029055665960664774599024249806914999875669914459530770, 41843077650277352193905084915972350278525114808051899020734615389539969412294, 6976523876346420212045247217815586246990793565760867172626592644917836294083),
  (11818048600713037162672878713898507646976841776377442375728935562200419768297, 16528475361056672155776654053392254565739534072685036760823197612993814232257, 25509190498284341058659691944687161438149148642947469936686670407104533371325),
  (14442383869702552614107376985727488859902910630365227855325116787359477718970, 32448497849983965953370631148462764262219206762293229561900543491089310231372, 32799466268433833717493205459970545507709943056662305169370065377905725556944),
  (32327253170292805656159287905066276642015912066631636710604620942373313484414, 22038110842116483864465258305106146593692402532635726985090508999576309213804, 11231151860763007367365609073558240205367057715993638473093962265881166112598),
  (41160972318417844312943666147359656248537922793944297372345542949619990539913, 9439377424463740525822276624757761885324956735725402842193282545163128888139, 12850585020980948038231639401146420425499877703386691812773300360206194845682),
  (2686514490848666772488391441178302395927855245067841177921854601079786760236, 26912811125114424492518171415537226842553422139501591799062482108524209461214, 12347239381755759926477958551925140963609570708959451901376774054706638025863),
  (50967703644435265948337071542870465370096787499211972250994789748150065738516, 12897123711324922905657789448604456713898018646987629280798860375415547406655, 51092143126414124942835961064866971836774877266819664242882640658821027693637),
  (12344871659931572403152937817312583480453015802384008071907460550499299605658, 22155985096513810253055477946275322219918034873232465091329438246374128445546, 51060738764674451922570512927927194341053056978514710222162727105524533744561),
  (19661002206691518554654397992795793488926178702140709525846700328702773980169, 57302131915764398427490561704663415291927310068172571967941321164491700116416, 2686681141956917645241676128356130847751546481853092691288842901740290101165),
  (27734749655120790723796888257123181243051695835813288350265242790320064019209, 10484525263631797625654980218614599236373198471907618984695511565074935684404, 16199972441325641587421359244042488411241074616147346805608890505765814561985),
  (3067445377055216193063740329859650951302747158484118179319840603331031717152, 56399000220490235142316406438312411158522328899350472855541915232781332940372, 7390032685503270071522136234483002217000353110987249169327237912250319908756),
  (26437447665592462512706333341350696803612438057790516108188894473467675304619, 49082260470110655828974005545483521490522252467343596278510594443235703159775, 19434479505263871341557365537329020420481018876241080415419325002763014732322),
  (48743831493094366626147923937487681783718340646046084166121374156577763439069, 28315263781866966336692402151991391855713214103052037261743580783797418905133, 54946643256736207709291377626831903751405570435122615064223523929655543130921),
  (56762845417469232172231534835595809186728189985854859231809292508206263507428, 54133048495424073207610042373239689105855743803313038442946700685609730097844, 43343187643400593943722142742344184140559054836335734876120496032994405834728),
  (20738339141575951174085692939455836284622299893454804337005870254110479941265, 54175993163108240291894194058540388841237296720513058316648965818788502889397, 39705696307866416044373506749439011381113754987874730654752755074224879412411),
  (31395232098881108266003109586335256326072198378149674470653303593726199008114, 16329358318362781670182317780182041147598695630683631152369078449314155520122, 56484279900698784706701950053310697172114688390017612877494127674642950897548),
  (55604741462408007663475657984328943468334027884546707919935080029499574030174, 40685073216613028743236886232404952390884127870781786537409920808201503419417, 15204906992655411748409609107868996663966768044113704160739932088079276746369),
  (22336194819729150717246451251167381934015011343439146827786002924245355069603, 18559995344313407138187732920018858283826631908401939620782871913454363768149, 23326037914634928406717297484959043174430735557092820378162065744174348840589),
  (47854381807478972580708538295019973869116981887099814648249223298343525519035, 14572595862405469255081860462789709482928471806578179421306395267874785273275, 57810412090074217949815331059045926449784069859590017260672769718049257582994),
  (8616424021405920680941084098537783534898127952967081826090785301907514942184, 22548732794778476964245638163978184033537517383808313305718110966798883877952, 57269820913300694268611382103685486463356880376069866541639617194051782155073),
  (50013249953413621166168218150365218292099558755681335558953590140932343733545, 46131352023720068036298101183693255902763221970552603436358608970813697696784, 48082783854919216522691002214207672688447688629008642234794746357143609476528),
  (20354588151093405808019075414905313257763374242556497969760402069132568597187, 57872907145935839748559089940130691661882496640450931553147674892338377436458, 44498075842617397448688527231890097533899374549006498588339002823621744815965),
  (26770710618446364428774653285596109263432214584527535493355048246633556002479, 15197475194716016989406781640568969057279729040604657540843205034328534708348, 20352247159590930116119416283763824892314848349952110479246835771293177801384),
  (56908997702375911454757818159916119644528493971176597000395977058750118455510, 56699251493938333679917497915726648673774547446154821722404149358404935417112, 35758908942461012810027804355324773033916602833731046535287972104557957749422),
  (33730785730718746488972694217827343320399051634029389903199572969887506260902, 8166408785109190525105320976918402636962271748232111622396178779550640891181, 4525924782277251474258734804746710929733542718634364450411290915296078414120),
  (54446399446175005486939664982013275526277673450775623139135902491217009039239, 35892996167588183923017509052084906149565686736438721917007502877554402131869, 17024880869371726516869984561001502467846358323119182845680949651529144731924),
  (35811389754163031965952620484379934226694789380126929430156130820838920875888, 36165348150025276184062508622605204259035440134408888349345004579525242653950, 48185837778907783047870313607458042588128566817850201746233661384820316399426),
  (34327877356246970367401665854528066257714592301555346259335746184590784062116, 46961335855711822715727741079982612208074324214045866827961640828598929756536, 5469124550491434219743918671477921356441068928013871870626199900859103696557),
  (39627832566661914224034502052156862236161727749195264080829451090123179062339, 46448620797467437555083343042631774219687598719878709255566938783939926469534, 22750195854376433771845028169261500418268810465477945873751381369416020955886),
  (6297494065549695331588217930642916054018989306464201581563942786868673020838, 43581231952716410696853673331717698586166549226149268888028604408842318485508, 47723335741929296966910817296124277504463330230901141898951408890809473704420),
  (15811003509538855417008103433546877317591121824304817803929712337269027529196, 4222090520931870246800402839691496811509397364270297672329070732282230762868, 5651937991899480177956702606240777300930537538642447168936026189948961236500),
  (44243427604216804008771146844077899974814033027905381671781204888058865627004, 33846545197969663247494332905855942188727360990303130701098284279291308463394, 44564733081042287817691252021217381135273340610886800066503169773175190543162),
  (6162944784154903128844006034853110747314945494442166184074785712545759188044, 7414801708805628893387941410536772427706610115350125857073472637150933162266, 23477820576829024018008915101018284764074918313232514399878397706006970754570),
  (49885223436379280118548670641935632574620987331570584587803832470323532126554, 39747529553902976019572147121568320999066966632700622770672432453266852818927, 1865364378944595585107931244759347015637048968365463540288195315834753193701),
  (40751809437311808594787735854299586243403629581768655422629488730214014874192, 12891427075724961746725438462283902835080814141992616126643166985904451983810, 6952627835142160205926568622450953357088458055439562625099224719826408652256),
  (26343199399159393020620442985859970235005130008225092059189838490517943833789, 29854532809342563534270172339467802655303934938719913723881401961727542273232, 38294896074863906781973291636253510032540593168178791100546171229283544016536),
  (5006258691836475659851055017029835886619183555682933030579926084819283361322, 19569820619505428829541437778685142593685008371353130892238634252922041089679, 36739779509588999753253560540463516141025054644023025743003684521433550690970),
  (14690736105030056316294100411671460915167050237591862018833758007874352333378, 3095822281408346939915418367948226792405142602392849214599892295428916018610, 3270080835721871120508437605521364600492861450398974788049032126814655628142),
  (24757279462968562348914664409501547361776196205804052165834961957198327222596, 29093375043210561575811570860910456992880662092798693461796798540309940499149, 41678760663680153514809642787282765829524173007642267418247021722422551726188),
  (50137624828507895571836904317356251677086945676564131003261012809116522607290, 45700361864915207321898967268148441588973916845122868976757575887222111696290, 46074325464483025257877775792362676696297792612297897033249126150648419435947),
  (47330043545447639205458226302800003928770716888503474066462322346067107548284, 29168730918761950295912615283884414259990558902455241272173062791885683147844, 36474052802333217329440830150278567111405751503404797712304019678183694710086),
  (51777240275051387062036237418047984415853097724640244461817258366269379462288, 23617445015814155790141758545764914871249370733377123607191841769875872523903, 33508537719486022578541845052651369250943515744698865119637456062019335797705),
  (49946709286565557904080465719846469347616580905885292290828549477802805756174, 51120348168543204521539385372488643041520096675739107410264939511824837636146, 24902296328051527704376621853660910876664280903364161982621327625490641981617),
  (45513777838550558684018816125710799985553414200630351022742769388007232062361, 12255076484114001946855684159711892247232983407487383496522435983060468712066, 17477787542487656047260390973561258006409068409942514423317632638407768020833),
  (50211786140352058492316668813910839558387904182203248857488212363505369158089, 24935549643479307409635372233263029139373620002538399243993341094394011519840, 4292389868392704878132671055596656919963871474550908889323188269417704411986),
  (44874182608007927664212411788715894280157877677885423867819142012977834324494, 11664453070074337497955389294551208444069935720953712732058542233490015109977, 42501790323581604671826223063673102804016777767165117634151650425218046135617),
  (16934793854714062486017635440158785628138639831356037157163210838573526835678, 9715921492427618032558358718220554106602169244420063356478129350293160665601, 47619089150048455840591069716942420471869841347148454582681630295374549995920),
  (5480194978438336469249505862081551519851259945655583626470901923559812169857, 31773964401718662558384362756944891555906842360162024307118051674800591582580, 24677634451195563436034254979042486776369807129045891126591226149660787521029),
  (6106808155484368648746804028850134941289700232114795655742743369995950022016, 4979471779108872917605017675647030253939595849532061075492487209046779225944, 31694538446657288820966375455986708042701733758171230785374316199016933816645),
  (56665705635220251739767497047549994486908910523918428801787488516043937363182, 32791908330067435078008554879019190447646216811290899263370140995825301059709, 5904064924588890890788314626474668205164441175612337595042231728613331272263),
  (57678404866526978165671968848471644376625104689324906994895659317829986835744, 49710174914828112151825621903205370887403174081918240724295161480459326792939, 52171017946722578310450294135044020837425614844782962651232336677134173824529),
  (42496986142275388874768296365488411143636534263984832038741320541861623494383, 50752401199269927502994136142190995310048660625305933297831590004597844789047, 51482305584026159634031954274790173698426122604107509217056940852769044629282),
  (36887996821660172062805206325985742410300511051608336757162113179616571315615, 5294516475315360000230303438959283321057015681044017431240901876155035152666, 29444958482778048488047845945404222285486648682353136381588821263608667156370),
  (21505258293776614483449755949059094643832165796454603549389285609085778998435, 3507730496996687047711434016910119635001012571773522167911907495425817239977, 24300810731930258008827174415140842962093444379356496729418143816160322471023),
  (48884554497372752747311355488381833503995890895147511489214947593991768146025, 2521372241939814209959517192521142877585225803004303458864943827988895518052, 33059286732516900599087761105675852383123870138505182333887605748077819215291),
  (15566534535572862721090869706529952233544249101079298405378329825459187194216, 21481057160786490438181619866080162156075792394611104422145872283948264967846, 18067280719963986016263546996797662640072676083392960757749745003318952343507),
  (8586521400879890627623228085305955323780227647175914162822771409464762003099, 32360549259863350254520307473253470227607190989069914934890491036844598395720, 47958667721651906337945173827849965858738069389592604373476290901591871146608),
  (9314684517782627501915580948315697618007869174081155909356419808589728974709, 53847534249456878133266027660719571047654482580349625926697389736253096526500, 47768878746975091428614911143372979898270646951184255620975166031734255205050),
  (13547005800459114151755454049055208054210859763574140057240546066101225474194, 36240734314599501335991976034042490510533953173847587139219277082982889721768, 53398612386637570674275501702019387574330849065589894576912334754839065997873),
  (35160212863861160028533500530244550299196198424203204505792066004046212709990, 31167068448849790725862170374285095507430382675069542674075982961170952521658, 34107998531262261582748603901148379979915276050764447036208869482082091979133),
  (782336057151977413990307831642975848217664832441170078331897582032325286850, 25293655984188845840206810263815593514394415700475679062716866249416713351771, 5154327707816930094065800442329203352145647376851938892960162785109727973115),
  (50603240803833029120885884106074520031307150756760131230485690261680907689642, 12145886693674050768516290295598925879310879790583978648399225233967484507606, 29042061815985992859827512700700541123468558336125400658976448940604828896214),
  (41872186977143252038136308016281902387144516135102927802279633202975916657952, 45061116512837945821327217149020681539185455860057120700793282129399368700434, 55542665380879869381974670387551762815262236765852009778876561433079495103148),
  (32210636248315370011161166138421269403147859140190720383576711392839798112796, 21024748601646868334229335007084976896290726833474573745503160899433414703530, 33191385175963394250810185569714030057370533856866879720982952999971509555437),
  (26608196970012851166221717733165820820036989921686865464882952854508834429297, 1359215390386675485069216445305314468038344476827973054569551743057757181886, 28836841528407755005882715919570462224967668740887310553997046174774379559573),
  (2850292630765867332056889454623374116431131209274537636091494926490939725970, 2130826710250228204108175788001357419997104708176649748549424552990525173840, 18065252765598288922115811194977609510859993484188079242695679268994706595543),
  (32249530392881295039547001528831280117467693963028179109253704577107188004389, 17035727740149616397983542038554667798703991130949803513537944745315887278626, 37265642897571977191832466186110069534251838259110301111438036949398004211177),
  (9648518113973489290780104157047990882280314439122064135106194234223639021851, 47441193449662165212223963854656130006414661442738522654680370295132696431487, 35650786772657811348179457999196457572714795549847632478825345567475108612373),
  (56702232664220882873347168219240207202120164470434800911440126634860724757791, 32364840964550985219607064894044104815905902221381791982957982398703475718181, 15192343226526705201655186351676892449748366665192341172086721242782856889329),
  (19657327406630717106972597733656764634807355888850255760528977070828781817344, 23895875089811604606369187336005011694371909636840198447447974853460214254398, 23645886374996201898373737399060275898995394788887745282215859587258975478204),
  (4150647977618959515252988452664274864617885700154951870522305540251383812618, 57545875447569741039508491369156351870336431075375754524123814080352642846718, 4242103298232391216155904451445828923189122559879258716240090870873352502546),
  (9182433648840340714508567311576853186740699145094347003311132032768630799705, 13024603529828793812828279621063631369533799122617692094563026599342752952512, 44912992565022887228371291636543263961777790897584383314735381553393314851382),
  (56595502671979465999095999690266014752976665639570145249326529853758767829148, 6539350664229177833105568945637080231265733574018290349776450940407204237418, 1086369248806045060804720162719541281301847946196945131466718122234986245935),
  (41907574545365028715991257036543744539766856720603110326207924822402821711270, 36805524027977958943033022000498156311913555666111416919335128228200526219877, 7055153950049213919566304672444976354244644708331695512164528219110491085829),
  (13977822557408783646318616514786856501193687180734250776980254017129366766740, 14517429945919388447949865875592946520231136338820498672699850977977730677606, 23962266878216213505905087617721659189998169231666684807364201457181493752001),
  (32949383578743040017436824282178758585629386313711002013137348916000802562974, 23019755681287500821530258676444468005698616266518014253418310639457058185575, 40995437624479091299676940672519255521812997792132958679649182660557749338904),
  (57738476880695555412804909748918970946237973940817145205007560412046958463587, 20520722508709560366940411297875240041746458239613635905797233875918129830137, 20254028644757574081002252430141004016428586018933825136566613795074139980623),
  (31913412707692797838961636070162458403491113560442822261572838396575280765258, 52630346564881365586332775329793733814925435388342601686021151260909845296634, 26654947669304415590811618571138674495377525747539930060909041790115552765655),
  (27741655093631407930289298741096006016301104235004247667696996354326677264210, 8187814151864791224210480106733976858777926412749889248966011476827639148456, 22325665383428238310680858214942549850127037427956139296368596555118438046118),
  (26773025868742604916863516160866272845488537722948807224218768150772508367715, 36906861035100631243494947549604337645815052253445077921308610679679806906119, 1097428225886709384326913933030878947382538154612276447468267659437102831864)]

end Verif.Bp
