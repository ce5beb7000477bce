/-! Word list of monero_glue/xmr/core/mnemonic.py 7-1634, generated from the source. A word is written as one number: its characters as
bytes, followed by zeros up to 12 bytes. -/

namespace Verif.Mnemonic

/-- mnemonic.py 7-1634 `words`. -/
def words : List Nat :=
  [30138985346748146873909903360, 30138995085076528264854372352, 30139018531320598110991810560, 30139032496726485842209538048,
    30139042199139766777428312064, 30139046976959809167332212736, 30139060830422235977885941760, 30139065810968977784426201088,
    30139094218999324343455973376, 30140189530344196492339707904, 30140208689202658265364692992, 30140222679789993403978088448,
    30140227309561342034979061760, 30140255958080365394818760704, 30140265402092187420528214016, 30140270014498952212597702656,
    30140279513563470300322988032, 30140284143694698982699696128, 30141398678574790103229530112, 30141412715354813675023106048,
    30141417568040721581810384896, 30141431532183612834621423616, 30141441272067449801844719616, 30141464791705550278262521856,
    30141478755485890784979320832, 30141493052117471201295597568, 30141497644957180222226038784, 30142687754158710011170127872,
    30143816558748826600598405120, 30143839864584727217089544192, 30143854105683384253303226368, 30143868456462143664544546816,
    30143882624898035462902382592, 30143896532978581003158159360, 30143906052118893885957079040, 30145025326506577076229767168,
    30145044307480458890049486848, 30145053825790246269113860096, 30145063160097656742508232704, 30145077383834374265255231488,
    30145086828311876599615062016, 30145091532631193988557176832, 30145105532296941551019360256, 30146252993465097488259088384,
    30147457270705205542626787328, 30147495197314168968211070976, 30147499901235313545597419520, 30147523587574999753575890944,
    30147528235401714697309782016, 30148652262027285117297229824, 30149898892991786408795439104, 30151070121553161748102512640,
    30151074899227507216554655744, 30151079381240670189040697344, 30151089011523496384948862976, 30151098215151577650983600128,
    30151117031548590227757989888, 30151121828609121862109102080, 30151126735043351001920700416, 30151136178806916921419628544,
    30151140791097825073758732288, 30151150161106917361648140288, 30151155060922973808131833856, 30151159681000716101148999680,
    30151164476718341616729849856, 30151173700885826755689971712, 30152279194337898592328482816, 30152283825508740807534837760,
    30152297862399382516167344128, 30152316568482849341709484032, 30152335652543691219435257856, 30152340198762140804552065024,
    30152345086251845070922711040, 30152349773021876485831524352, 30152373512568494966936961024, 30153497233601749721745981440,
    30153502140433250004859092992, 30153506585307645110281830400, 30153516196130140905111814144, 30153535085567924886021603328,
    30153549309477296520655011840, 30153573067446187245170589696, 30153577531414292925945741312, 30153586976763407389255794688,
    30153596421024754108486123520, 30153601014980100802916384768, 30155905825303653800745107456, 30155924817091368813183631360,
    30155938714695415720268791808, 30155957715517914535165952000, 30155971827422786526839308288, 30155976550480720373355642880,
    30155985938319558088446705664, 30155995384279174617847824384, 30157208884743845365252358144, 30158328233320864556982992896,
    30158332936159632298065526784, 30158337603834964242876858368, 30158342491252743956116537344, 30158352065401148587525537792,
    30158361473272995801718587392, 30158380466109205102404304896, 30158389845009677388699664384, 30158403902049032404048281600,
    30158408439329219914462396416, 30158413235846070296150802432, 30159541807283592402778980352, 30159565696104686848776863744,
    30159570122359079702928293888, 30159579585466731921890344960, 30159584307936797582965080064, 30159603272123357854133387264,
    30159617549907604510148132864, 30159645828980360483996434432, 30160774473418926200107040768, 30160793160946717036440977408,
    30160807541120471215529525248, 30160821642894362804525989888, 30160831087408903961888948224, 30161955231995289096754823168,
    30161959935266912461526138880, 30161964455120190921978675200, 30161978843901449888879083520, 30162011873700811491025879040,
    30162035492843242035102089216, 30162040234231692780179030016, 30163159415777823583836831744, 30163196900356385220899897344,
    30163225326178483582833524736, 30164368175863957506041577472, 30164387213624135610204684288, 30164391972637142022019350528,
    30164415620602609081755107328, 30164429530381183205343494144, 30164434288994606200903434240, 30165596131414565478033522688,
    30165615020880496956614377472, 30165628929725528533616295936, 30168084567430322558882283520, 30168089529748593574827524096,
    30447261790965789909061730304, 30447266336791167385783500800, 30447270910935179319410950144, 30447280337754359559742291968,
    30447285244375191215950266368, 30447294615029461533855842304, 30447303931577878454183395328, 30447308634846115928731549696,
    30447313320751624440464277504, 30447318190660816177371021312, 30447327819461366558618550272, 30447341783974428857849610240,
    30447346395228101721009946624, 30447360728160221708888834048, 30447370294714431468644335616, 30452101782352092701810229248,
    30452111532216488518729334784, 30452116096920955633388224512, 30452121040216021823320489984, 30452125541249723306122149888,
    30452130355317375888378560512, 30452144542016490075630600192, 30452149374803745935191965696, 30452153764336218436322459648,
    30452172930575368614584516608, 30452177689546701336683216896, 30452182412204342581944909824, 30452191580421244500570013696,
    30452196229461525612252364800, 30452205932160396532348092416, 30456928364475759630556856320, 30456937927053401970018615296,
    30456942531575208239492497408, 30456951909682321807617556480, 30456956484624042127414788096, 30456975411629037806640168960,
    30456984967045679028027523072, 30456989688619814188916670464, 30456994356506829191341146112, 30456999077866454079059787776,
    30457008670646702268179546112, 30457013080384967023158886400, 30457017831184517121882193920, 30457032005592019818103439360,
    30460573946401128348880207872, 30460592865526234254114029568, 30460649505419753789228843008, 30464181937840191479314644992,
    30464186649570689355157078016, 30464195909335641897597665280, 30464210004089266092453658624, 30464219569198101846799941632,
    30464233596539876494337376256, 30464238274196592588285280256, 30464261930232400229106188288, 30464266921990139059218939904,
    30464271441442437118059085824, 30464276281651625163527028736, 30464280912576911247878914048, 30464285689925984892951199744,
    30464290283854759689872998400, 30464295024625595436542984192, 30467874669717878123754684416, 30467903060306909225885368320,
    30471439890893617925980160000, 30471444778780742869233696768, 30471449427360123000203509760, 30471458853646344665784385536,
    30471463808510032398524612608, 30471473131351225286856278016, 30471487106747797493688303616, 30471492094678602540442976256,
    30471496577421497086632787968, 30471520300395277351749943296, 30471525225030958922797678592, 30471548634594610581816213504,
    30471553669910320582926270464, 30476299445956405381042274304, 30476322947108228843173838848, 30476341689364436351941869568,
    30756746513565565142605758464, 30756751439383005603643260928, 30756755884976269773607272448, 30756765321318184982176333824,
    30756770043684667851821547520, 30756784513858356984282087424, 30756788933150599330402402304, 30756793589614066590938038272,
    30756798580797749880497897472, 30756803090522272744217772032, 30756826830073394824950579200, 30756831405049446789734727680,
    30756836422347662056618983424, 30756840887427561414492946432, 30761577678296463180413534208, 30761591514291267185070309376,
    30761615328420423494895927296, 30761629487922749232713302016, 30761634089121010027862163456, 30761639080229667561680142336,
    30761657976714861480773681152, 30765256328966067314315231232, 30765284662803429282019278848, 30766427291356701996607340544,
    30766441384669174310704775168, 30766474514688545795610771456, 30766493367190057432641437696, 30766498402650566518059827200,
    30766502774453193019465138176, 30766512367337686378460741632, 30770039975142785599844384768, 30770077643250068926672928768,
    30770134340831188947776307200, 30773666800087583958363013120, 30773671640124117891944546304, 30773676307150368540461105152,
    30773680838059824051331792896, 30773685918512988861111468032, 30773690308545779834810269696, 30773695263413689692201156608,
    30773699735842063892992753664, 30773704587306070229886435328, 30773718809419521561943080960, 30773723284017937657010061312,
    30773732913218344133396004864, 30773737875392499961265389568, 30773747199024908671144427520, 30773751958719758527226707968,
    30773756679643400666253099008, 30773761384141459488654753792, 30773770692150207090557714432, 30777331382522151614663360512,
    30780924948244546087089602560, 30780929973640907974240108544, 30780934382341526832577249280, 30780943864443844953741721600,
    30780958270661463878634831872, 30780981790260160057336397824, 30780991031501633609564946432, 30781005513204989687372972032,
    30785765510613818860518768640, 30785807956929403977222586368, 30785817400868898964120797184, 31066231393930489222309871616,
    31066241144660981343544410112, 31066250607840691156544389120, 31066255097709406213141168128, 31066264636085156054392897536,
    31066283590619094949222678528, 31066288154274908850888900608, 31066297765028448703334055936, 31066307283544450087788740608,
    31066311777244039577417547776, 31066316526012593787545583616, 31066321341046661511374700544, 31066330777390435498255712256,
    31066340340400704876921749504, 31066344785674946847598182400, 31071067448458643176771551232, 31071071802250532542415372288,
    31071076670633131984461758464, 31071081522276004672261062656, 31071086318935428301521420288, 31071091003898516809785016320,
    31071095855323790484757807104, 31071100486937567160768135168, 31071104931050384433405231104, 31071114303577417293032849408,
    31071119283409642393315861760, 31071124097356977125906710528, 31071128525300178533272780800, 31071133542277968149639856128,
    31071147535862730315245027328, 31071161784343350090672373760, 31071166304447385865899999232, 31071171321025862420999962624,
    31075898262297051815913455616, 31075907570596998475363123200, 31075917292031125320296824832, 31075921763453207828251017216,
    31075926542208587157181825024, 31075950375430359362570289152, 31075954794261827171815260160, 31075959689958911850022174720,
    31075964227825865835226857472, 31075969098517665158233325568, 31075978413260705907265765376, 31075983412182543649889845248,
    31075987821427708891857158144, 31075997303807108341267693568, 31076016581126698903692902400, 31083161410246328441609650176,
    31083165892052474265306398720, 31083170828502069021635510272, 31083180273235034760925937664, 31083189633156212317575184384,
    31083203837250882486801530880, 31083208357498905232446324736, 31083213375084953526582902784, 31083218042322443448539414528,
    31083232115606558297231982592, 31083236617041797028450926592, 31083241689752020635525054464, 31083246080581794811640545280,
    31083250850477860773670420480, 31083255738865040306701598720, 31083269747870127596423348224, 31086797281806166954843570176,
    31086816410935656203572740096, 31086844911368729505837350912, 31086873079301081016993579008, 31086891876778456831741657088,
    31090405364826616802136031232, 31090409910031623430187515904, 31090414798924734885028429824, 31090419402798856895104811008,
    31090424410153124184755011584, 31090452459364236982621306880, 31090457318812819622811664384, 31090462060390124190177427456,
    31090466634750308905918660608, 31090476207635453841850236928, 31090485450530999074490941440, 31090490522303225540928077824,
    31090495041759745724418883584, 31092823334496185094611402752, 31092842114290458447465938944, 31092861039527471789239173120,
    31095278891352358609322246144, 31095302263839128413246849024, 31095326078013476841407381504, 31375721229201658731818909696,
    31375740199732383503068692480, 31375792293553820440956239872, 31375797100660033899204706304, 31375801535833938856270364672,
    31375810907139497668928077824, 31378139033459768007468253184, 31378162821800510854361251840, 31378181608688909095928856576,
    31378195867948336454691717120, 31378214867087896381906485248, 31379357562073932800890765312, 31379367209721083350986260480,
    31379376569526293217230716928, 31379432924045823103557697536, 31380599636692647886129725440, 31381780051009292767714082816,
    31382993876499462796253069312, 31383031681476614819409821696, 31385411533583188152197054464, 31385472923298689694360928256,
    31386610922436116673533575168, 31389010124373458790136152064, 31389014828552998989575749632, 31389024088562944712917385216,
    31389029123513581669233721344, 31389047976055062752957300736, 31389076236466983675990376448, 31389094915740913345935441920,
    31389104349333099507018104832, 31390218920565402394752450560, 31390223569544884911465299968, 31390237975687801916855681024,
    31390256894596860384301285376, 31390285236393169644848939008, 31390289959881209350407061504, 31390313422443051000019288064,
    31391446901513046045564600320, 31391451569325848829685137408, 31391460755516167590386860032, 31391465588490382878126899200,
    31391470459268206393162727424, 31391479792921013223266713600, 31391484515360961061833408512, 31391494180513321888541310976,
    31391507978677154549518565376, 31391512848620013332467810304, 31391517736574956586714267648, 31391527303414472687411527680,
    31393912088760546663124172800, 31395149071429379058185535488, 31396263733594143497134276608, 31396282329021572630741778432,
    31396329847044498717012918272, 31396343940974124708757766144, 31397519699218977004221104128, 31397543311195205718413148160,
    31397557404437318058773577728, 31397562053444832206012809216, 31398690827080301181640114176, 31398700456928500326693076992,
    31398714457219566540150538240, 31398719328453226085740445696, 31401099308925746052354539520, 31401118234424119491074981888,
    31401136921765962626021457920, 31401165422129671695354560512, 31403517178150670504189493248, 31403526476031555918391934976,
    31403550013568650163840352256, 31403555078612621305223053312, 31403583420405431919771123712, 31403592883589761281030094848,
    31403606994740031345580310528, 31403611607795144059688845312, 31685201708718001508507975680, 31685206468842093007492612096,
    31685210987791558010671726592, 31685234692289585292882477056, 31685243969820393940369539072, 31685248814108325922188820480,
    31685253488950855198983585792, 31685258101539563876682563584, 31685277174351090084887920640, 31685286397908224224641679360,
    31685291323799411129577373696, 31685300805319748950066987008, 31685305360584671245757317120, 31685314805317636985047744512,
    31690032708841362297156796416, 31690037412860587623887929344, 31690046617569700506079592448, 31690051460821404351371149312,
    31690084470001316534578839552, 31690089044649858070308978688, 31690093803409240134944555008, 31690112970985114977605517312,
    31690117729125485653799206912, 31690122137820495929092866048, 31690131620138970339696705536, 31690136342610161900678283264,
    31694868422207883979165532160, 31694873170830634151357448192, 31694877874538262179556098048, 31694882356810127725006159872,
    31694887281942458092729925632, 31694892041346665244149153792, 31694896543404533220921835520, 31694920247398610343657734144,
    31694948573310884247167303680, 31694953211040769619383025664, 31694958154768181373542858752, 31694967315202863136071745536,
    31694976694535962461571383296, 31694986599861069291297177600, 31698513820790179148026871808, 31698532912909489578497277952,
    31698608341503459194142982144, 31702121856717332116836188160, 31702131448591904881575460864, 31702140848144759159085072384,
    31702150080235764892450160640, 31702159615789446617200852992, 31702173635606101012076560384, 31702183376176472373963259904,
    31702187950280910685083795456, 31702206968871966005585248256, 31702216322160864607168626688, 31702225729900865611093770240,
    31702230323140139964772122624, 31702235045434565240379408384, 31705748632763171621272813568, 31705786264769719602046304256,
    31705814930981743382071607296, 31705843007358569132236734464, 31705861896421146969191219200, 31709389466612852177804197888,
    31709394273935238418166448128, 31709403671716337893446254592, 31709427339219587384272224256, 31709432005482196420972773376,
    31709436690019849795589373952, 31709455709191535651956195328, 31709460265748426989559087104, 31709465283696172819202179072,
    31709493710604764591238938624, 31994686607575028914613911552, 31994695960074555760333291520, 31994710341224465158654394368,
    31994719701029675024898850816, 31994733629696455936841875456, 31994738369427411594744168448, 31994743176428916361656270848,
    31994766954282027373268303872, 31994771536384462798412840960, 31994776590760250847484968960, 31994780918467291171398877184,
    31994785751514238483301400576, 31994799807933222649979731968, 31999517698950302263299538944, 31999527015461432545305952256,
    31999536452196005346386378752, 31999569656335338023579287552, 31999574387091866904109776896, 31999578851055874271256510464,
    31999583720064916149403385856, 31999597888140394113554972672, 31999602739810399885262323712, 31999607461311067925568815104,
    31999631054409520474142801920, 32003163404065470528110985216, 32003210609252311428438687744, 32004353329707445514032644096,
    32004367312699741356062408704, 32004377052148266710478094336, 32004381423699091180673302528, 32004405238773211338672963584,
    32004409978893846012086976512, 32004414590295738540229656576, 32004433719753427611803451392, 32004452406766511766408003584,
    32007980199327952176066592768, 32007998829635769219751608320, 32008017700549847711054036992, 32010398116467534414892498944,
    32010464052408670850660696064, 32011606986946916822938550272, 32011611569049915198036508672, 32011620902814300903831502848,
    32011625857966104227809853440, 32011635089148916655166849024, 32011644662620247523749527552, 32011658645209879564620136448,
    32011668101010033022683054080, 32011672812025585557192048640, 32011677608393136128277872640, 32011687072075666902310977536,
    32011691978694436974216871936, 32011696719218870591466504192, 32011701405265920334554464256, 32011705888187539870502092800,
    32011710768329075512875941888, 32015252311770790013935026176, 32015328109413634569509273600, 32018860512205414778171031552,
    32018879421242472911257731072, 32018898032926379373626392576, 32018912414108939869245931520, 32018916885241110373376983040,
    32018940840541557455664971776, 32018945552747919565962346496, 32018950274137684266421583872, 32018973860213449395762364416,
    32023752809882476895520423936, 32023767070912530964243546112, 32023776183272244379220180992, 32304171563132066666546987008,
    32304176322319983388108259328, 32304195137495640422771326976, 32304204786051000771549331456, 32304223380112998527372623872,
    32304237804312829522163531776, 32304251824126542723434938368, 32304256454184728649355231232, 32304261380330069866074603520,
    32304266010030939801735135232, 32304270761335583552026181632, 32304280362028595173346246656, 32304284752210304641861156864,
    32309012190326867158905126912, 32309016673171104134208684032, 32309021488750717803182424064, 32309026359123498826731618304,
    32309040285222946476096749568, 32309059267422334054630948864, 32309063823019560650072391680, 32309082934494939359509217280,
    32309087546640734401006141440, 32309111009966381055875219456, 32313847728593457318981533696, 32313852413991165181518938112,
    32313866563290832254133075968, 32313880599824602175203442688, 32313885397028807427747741696, 32313890248594556407397744640,
    32313895099109952924149612544, 32313899544776851387825782784, 32313909211559233804665094144, 32313918445379621794940452864,
    32313923452477879896690917376, 32313927860741628090566836224, 32313937334845553273521307648, 32321092070555238186501537792,
    32321096395812320313125896192, 32321101282792406437580505088, 32321129765641737944730435584, 32321143647651668278407856128,
    32321153228817807029166931968, 32321157952340589103139520512, 32321162555564343830698262528, 32321172173628474328503812096,
    32321176933176782838204203008, 32321181452812495465375334400, 32321186340651753169913643008, 32321190897977806768893329408,
    32321195749543555748543332352, 32328349967479021546202202112, 32328359431448142225038376960, 32328373609183685778939576320,
    32328397350143308643132506112, 32328402024375318695441858560, 32328406949760132117275082752, 32328425802617256601054085120,
    32328430229261906813833445376, 32328435258202380116261076992, 32333185948031597777290002432, 32333195393197865028858937344,
    32333251821975055842769108992, 32616088461488787956973961216, 32616107572427562111102615552, 32616135899204527143067320320,
    32617297609747676919784013824, 32617316517126266378214440960, 32617330499109755903713214464, 32617344796417276939184635904,
    32620957461828674062750056448, 32620966906806241556802043904, 32620999704827848336326262784, 32627002071791923260693676032,
    32628158922739825415909539840, 32628163534638367773214900224, 32628196940904589428852260864, 32628229721528679797169848320,
    32629367775563709035269062656, 32629372719364565533349380096, 32629377552164267864537169920, 32629382274635585222450348032,
    32629387051040480292354654208, 32629391552048832964074668032, 32629396146587114335272697856, 32629405867295333712239001600,
    32629410608763706424235655168, 32629415164457991309107396608, 32629419831841883403325538304, 32629424407066759247521906688,
    32629429386462801494951329792, 32629434164456621016386371584, 32629438943072660358000803840, 32629443664390776482747645952,
    32629448275784341309821550592, 32629453109628299311931457536, 32629457536986600070843465728, 32629462424652375735534616576,
    32629467165971003759921201152, 32629471630587310547868319744, 32630638201573401264725688320, 32634203791326267845742952448,
    32634241544533569731364388864, 32634269795217715459277193216, 32634283869750586779356889088, 32635464313365722484545945600,
    32635478682447222261592096768, 32635497738217465699912122368, 32636621495707767357099212800, 32636630866369903581189898240,
    32636640404313026383237349376, 32636659311249090910625988608, 32636706369394141257952919552, 32639105572283150270814224384,
    32923141452567401259042078720, 32923146340959210835537821696, 32923150952540394127752167424, 32923165156633535975815905280,
    32923174693600222083654090752, 32923193601804056011560976384, 32923198471169176409695322112, 32923217103388238232059641856,
    32923231399944221079713611776, 32923235955743222352503111680, 32923240928552226279152156672, 32923255224778883404054659072,
    32927972655820964609470234624, 32927991619073872382889295872, 32928024565419959984387522560, 32928038804580374857438461952,
    32928053027310272361474818048, 32928057768121402536155414528, 32928062490775103131743158272, 32928076381390857542335201280,
    32932836784268499542133964800, 32932869620260517729972256768, 32932898193766476963406413824, 32932907354488243410970869760,
    32940066720330690825048555520, 32940071302435096575030067200, 32940090118112081433935740928, 32940099692259473415135559680,
    32940109045116923181533233152, 32940113969748228090712031232, 32940147026818292811470733312, 32940156434800878438766870528,
    32940175269435928656809558016, 32947320098591698042419675136, 32947329505898232452703322112, 32947343673530623143715012608,
    32947353045384822386849742848, 32947362525385327274497146880, 32947367609593671738806239232, 32947372165939457945065488384,
    32947376796072220446162944000, 32947395943792568956677521408, 32947400581519355905126170624, 32947414472279628358841532416,
    33232683222736093928111472640, 33232702002886873553926356992, 33237476583715105989833261056, 33237519055428179964536553472,
    33237528603533393850768818176, 33237537944894237886954602496, 33237547500809974458093666304, 33237570780816168135577042944,
    33242302758054093934714421248, 33242307535045595403317673984, 33242354622271213669953044480, 33242359573708787986171166720,
    33242378462774743522846179328, 33242382890205674785778696192, 33242397160463047644179070976, 33248338034939741872140058624,
    33248356713177452841600548864, 33248375628367945391721676800, 33248404276694434388807516160, 33248432241888363518722310144,
    33249546885647931129840271360, 33542111712953796674289467392, 33542120953840485932875120640, 33542135324573569393088266240,
    33542144816617412167859175424, 33542154029829328263287144448, 33542163410935438467087204352, 33542168233993796963948036096,
    33542177918106198538396368896, 33542187122279390181691752448, 33542192077175729011730415616, 33542196531055616496056139776,
    33542201418391321438991679488, 33542205893787040220184576000, 33542210956655337334942728192, 33542220327604295460789944320,
    33542225225974829467794669568, 33546952231053399808484048896, 33546956712427088523357585408, 33546961361222767880278376448,
    33546966389689910223041462272, 33546970917171563467529781248, 33546980546805552458724540416, 33546999361947905286182273024,
    33547003881070990871968612352, 33547008824223064475196981248, 33547027770036798640367861760, 33547032511279385973880782848,
    33547051196537483544299044864, 33551778444242466244095115264, 33551783173630756923671314432, 33551787768134846781780393984,
    33551792629788658926740307968, 33551797075453980690742247424, 33551801824586615552215089152, 33551806602332603633270521856,
    33551825436704157423020015616, 33551830083812830366884954112, 33551834955010614547173081088, 33551839603125405935430795264,
    33551844483586250124289900544, 33551849306574798454649782272, 33551854065040619251200688128, 33551863491041425290396958720,
    33551877381947212176698638336, 33559031748211701482711416832, 33559036748360616187871100928, 33559041322075816387642654720,
    33559045970623234815104647168, 33559055656605025393377804288, 33559060174472056383383535616, 33559069711469264334458191872,
    33559093187010246513726062592, 33559097990760828549327749120, 33559102805069873411904241664, 33559112029451958412875137024,
    33559116843691476276144504832, 33559121768326854875904212992, 33559126196051673008392110080, 33559130929048621323468668928,
    33559135659629669913437667328, 33559145030143313793662320640, 33566294878402567896104435712, 33566313692381243796212416512,
    33566332546537280108150915072, 33566337396445993128335245312, 33566341934637636195757064192, 33566346639462035566840774656,
    33566365705180842062193360896, 33566370372207092710709919744, 33566394232095804209665933312, 33571177896354596379158380544,
    33571182758801042058535501824, 33571201378731883863549673472, 33851601500238252956922675200, 33851606148129679657509322752,
    33851620222846218929545674752, 33851629723064257289828433920, 33851634501679573605424300032, 33851639039826313717479374848,
    33851643687183374468432003072, 33851648630690954265780813824, 33851662901450881397810003968, 33851677094307091880140079104,
    33851681503262897476982538240, 33851686384156087230069211136, 33851690985639591487838617600, 33851700503802633787052916736,
    33851705337176816650102505472, 33851709866861293062328418304, 33856427685357057409682505728, 33856437018071542541355843584,
    33856441759025237601307066368, 33856446684741895293239296000, 33856455778485431425969422336, 33856479741307275380755791872,
    33856484371441050532062429184, 33856489196889862322637504512, 33856507835411281914460372992, 33856512568914603712639401984,
    33856517483746920257590132736, 33856531661294720002025324544, 33861272658989104093886152704, 33861277647968684903864729600,
    33861291612188007174177292288, 33861319882653932790338289664, 33861343742324501182343544832, 33861348225101454200715345920,
    33861353223229379672604147712, 33861372113849343162535903232, 33868517045874987235287236608, 33868521573137934422871375872,
    33868526331893220806693486592, 33868549760557201435343716352, 33868554814751845377531445248, 33868568999215078046653480960,
    33868573445530607006857035776, 33868578168657072313621020672, 33868583048325282968062918656, 33868587862925486206255890432,
    33868597314966668240861790208, 33868602056287957517179289600, 33868606556787257286154256384, 33868611500698634408136015872,
    33868615946752794559470632960, 33868620742978752823450140672, 33875779824164711865111281664, 33875784481463187318507569152,
    33875793961967681948048424960, 33875798702489863765484371968, 33875822406560502081885569024, 33875826944959725248050102272,
    33875831703429707056162013184, 33875841369813409855304630272, 33875850538316966549918842880, 33875855407636305482895851520,
    33875888778445860322467119104, 33880686388404891619547938816, 33880691313977863366730842112, 33880695807673379165778739200,
    34161081492143939909557682176, 34161105195918916250715029504, 34161114725579637863051427840, 34161133494204984140027133952,
    34161138383024509237285879808, 34161147771295283498278977536, 34161157344580796901767512064, 34161162105537388027769257984,
    34161166845873633632855261184, 34161171549145405401631555584, 34161176356151588126663376896, 34165912767702400552744779776,
    34165922084022087602449416192, 34165931399124176806994771968, 34165940789599311786772791296, 34165950583954593066344513536,
    34165978799950481745040637952, 34165983418947812692487831552, 34165993121934069563805138944, 34165997807907526794622795776,
    34166002585834191489951858688, 34166007253071830945489747968, 34166011698709730889494953984, 34166016689562809144459657216,
    34166021438662659402176135168, 34170753204698383324899442688, 34170757731428498381570310144, 34170767083927743752312979456,
    34170772121330027755779129344, 34170776622005826109111795712, 34170804844951324266212622336, 34170809623228982132876509184,
    34170828824922996982096592896, 34170838196875827288735744000, 34178006693068912681084256256, 34178011508892246057787850752,
    34178015954381243121666097152, 34178039823491637807616622592, 34178058380811748743065894912, 34178067881489962872273371136,
    34178082343449085657344901120, 34178087066537263297760067584, 34178091511164105125420597248, 34178096400632148569020694528,
    34178100956506315755219845120, 34178105733708042747542241280, 34178120233349517616143663104, 34185255507095686419205586944,
    34185264915083909242617331712, 34185269545211760225273511936, 34185283712315712433836523520, 34185293378119797117072441344,
    34185307409071379055481192448, 34185311954280326333206626304, 34185316982931553310738481152, 34185335879675301787150057472,
    34185345324652988492314312704, 34190143175616405137480744960, 34470609309261157187033497600, 34470642365826537274549993472,
    34470646912012202721461403648, 34470651707184277389410566144, 34471789631775311283819118592, 34471813261626224821682569216,
    34471822780430285058475032576, 34471832337069832837642846208, 34471855764006104636032286720, 34471860411934860381500997632,
    34471870004676094599532380160, 34472989427076577355964088320, 34472998502586431244911771648, 34473069595501954510041907200,
    34474203030154620987041120256, 34474254872816047746310995968, 34476630076226881794590375936, 34476696189329494471952302080,
    34480285205971479655234928640, 34480294909247095070353522688, 34482651454472939224585732096, 34483874186671686708828831744,
    34483898111162001587624214528, 34483973503827328591105884160, 34485087870526293256423079936, 34485106982679867702992961536,
    34485130408823243840799375360, 34486282776852609964846350336, 34486287500081262125654212608, 34486297018025578593934901248,
    34486306389260362464003883008, 34486315834322540676348116992, 34486329890769953815674224640, 34486363001743434699774099456,
    34486367772427516898273394688, 34486381689515261693270163456, 34487604855184347412016660480, 34488695685341474261036957696,
    34488714777428723533736837120, 34488766742917120842098802688, 34488785520547405344117096448, 34488790420220205321106227200,
    34491113739746417976557961216, 34491118370787500227500703744, 34491123073942752986690224128, 34491127741621744106198794240,
    34491141834645986044144517120, 34491151389697720880619061248, 34491174891135489332444397568, 34491184464133510733378879488,
    34492331871255529948568354816, 34492412464459850011161657344, 34493564482728146687372558336, 34493621151092329656549900288,
    34494749843807402002560843776, 34494768741632014389541339136, 34494801704882810197941157888, 34494820889527176331452743680,
    34494825623032056801398882304, 34494830021600248149433122816, 34495949398681027187283329024, 34495968325040446813283287040,
    34497177066392620705362477056, 34497210399659161898522247168, 34497219594352276326202736640, 34498404888698843225584041984,
    34498480502190904193839005696, 34499661333620420463273443328, 34500851259261551024264970240, 34780056558597383372306120704,
    34780060993626736635179696128, 34780075179576719465567485952, 34780084863499915313876566016, 34780098716569722581034205184,
    34780103715999736400239919104, 34780108198053861674123788288, 34780117680875065292374409216, 34780127050841930170479149056,
    34780132124709733479135313920, 34780136643911800283679686656, 34780141550025147950041137152, 34780146014742224959128469504,
    34780150903562595561719726080, 34780160328841704777151676416, 34784882511070772093081616384, 34784887215278741265168990208,
    34784892288134468133619499008, 34784896641713289673561866240, 34784901566340819534120747008, 34784911132895029293876248576,
    34784934567421128733781655552, 34784943901908950873507102720, 34784948864297309158653296640, 34784953586163048044730253312,
    34784962846424478465623326720, 34784967828026191117690077184, 34784972199432503050910040064, 34788509583432792961359806464,
    34788528141893561948865298432, 34788575604329832767845040128, 34788589532658970151572471808, 34788622920544604675528196096,
    34789718417739263162366033920, 34789727806439568237819592704, 34789737380155908779977736192, 34789746732801930156935479296,
    34789770382606145696173129728, 34789775122842801936061693952, 34789779605113491422493802496, 34789784530178001713993089024,
    34789789087029313014169862144, 34789798458550515930947911680, 34789803531047507949512556544, 34789807939312388640365084672,
    34789817606242435468814712832, 34789826865963869341027926016, 34789836697253457471480004608, 34793345397496824833884815360,
    34793363899648566011719843840, 34793382808357815748101406720, 34793411419399295898585399296, 34793439726763091873132183552,
    34793458698045746258338906112, 34796971769268039229559013376, 34796981361361886056332394496, 34796985935865905584684400640,
    34796990973053578112548208640, 34797009751949101864765620224, 34797019030517255752594227200, 34797023679096762327401234432,
    34797033270499301556196737024, 34797038040895830026818158592, 34797042937092658133012054016, 34797052362878138507969167360,
    34797057067082721124113448960, 34797061458203984195053682688, 34797066216568020361247981568, 34797070976581351456896974848,
    34797075679563645539479191552, 34800598723670657813018836992, 34800617731125960522474717184, 34800636343859641104625303552,
    34800664641698002646679420928, 34800693196753023775134449664, 34800711994634597656439029760, 34801920809342074080733429760,
    34804230212643153893155405824, 34804234908968979292414279680, 34804239510018902774836625408, 34804248991431717154222768128,
    34804277502501045487768961024, 34804282232607367232227377152, 34804286714920328048779722752, 34804296400685945844939096064,
    34804305677985210537756065792, 34804310411492472985609043968, 34804315363938853618358157312, 34804343807910005479804239872,
    34809113195291464897252032512, 34809141271161182690547335168, 34809150845166769557601255424, 35113729260769161002344251392,
    35113748113125431551392219136, 35113776760486632458098311168, 35399021531431022228456603648, 35399026309929788539481882624,
    35399030958332984699243200512, 35399040753626145433053036544, 35399045191004843882693263360, 35399054773467307942111870976,
    35399064162213078922885595136, 35399068940683435625475473408, 35399073735423890406871400448, 35399078237152672874118512640,
    35399087773295925408131186688, 35399097145355429860450762752, 35399101914742870539564482560, 35399106588974880591873835008,
    35399116108243827539029524480, 35399130451855952568240832512, 35399135108650024863371624448, 35403852531549597942501343232,
    35403857290233108207262236672, 35403862086703226720545144832, 35403867029493889752211914752, 35403871467997080733811212288,
    35403876180131385250070659072, 35403881197240856151907631104, 35403885623672022988014747648, 35403890513568316813245153280,
    35403895253444216686695677952, 35403899865490812195701784576, 35403904587036394852211228672, 35403909235722017493238153216,
    35403914235146966463670124544, 35403918920257152035544104960, 35403923403540634667669520384, 35403928420406350438698319872,
    35403933143421224111336062976, 35403937839382257940777926656, 35403942588441012851894648832, 35403947181032171280487415808,
    35403951663879372096757825536, 35403956533888487450396852224, 35407517290494201627802599424, 35407592958564669598579294208,
    35408692938418469532384362496, 35408697771252340286916919296, 35408702474665987074726821888, 35408712151896439152088973312,
    35408716678554496614721912832, 35408745190015075165895917568, 35408749698617752022144778240, 35408754661481408293257609216,
    35408759309080256049204690944, 35408773347701858913444954112, 35408778290493929319995277312, 35408787441273569681092902912,
    35415942065394188926993825792, 35415946733473155988408238080, 35415951381004576193781956608, 35415955993338986523674017792,
    35415970454905170868322697216, 35415993772598486353726930944, 35415998420845682031713058816, 35416008087704233116566552576,
    35416012660983553921738866688, 35416027104888309377700724736, 35416031477843859582736138240, 35416036438865203857161453568,
    35416040996191257456141139968, 35416045663028765938633670656, 35416055089071384206011006976, 35423200464499603592152350720,
    35423209548113966485529952256, 35423219011288156750158495744, 35423223751596589109108277248, 35423233325456763364365565952,
    35423247400971854376024932352, 35423251994066450591674007552, 35423257103027554974336811008, 35423275587423691893542748160,
    35423280660306851087479996416, 35423285161312422059206246400, 35708506781847313004917424128, 35708511422040721915094499328,
    35708516207057750069858009088, 35708525486852445462354460672, 35708530127039212656579837952, 35708539782716844292230348800,
    35708549090292120429998899200, 35708553746109756030920425472, 35708558745749920108838387712, 35708563339571284714354376704,
    35708572838848866165310095360, 35708582116986088460864454656, 35708586924564215608289263616, 35708591673303777895816101888,
    35708596284372910299328544768, 35708601043529191399889043456, 35708605913860432874140860416, 35708610673623684922239614976,
    35708615285165310610480562176, 35710919873939478430793859072, 35710938781347062530539782144, 35710952967328134052202938368,
    35710957505152696366598717440, 35710986023935172436272611328, 35711000300706279170934571008, 35711014117245532785350803456,
    35713337836189648911664676864, 35713347207060639568474669056, 35713351671144557908515094528, 35713356448230902150618677248,
    35713366058987507340332236800, 35713375614975971713680932864, 35713389541982337235565936640, 35713394319470071809952448512,
    35713399226518195690314661888, 35713408689412760358703071232, 35713413430226269874633572352, 35713418171327731158394863616,
    35713422838354270978469527552, 35713427598087280485105401856, 35713436747560991303474872320, 35713441395631758246156435456,
    35716964318211779394489286656, 35716983374344969357690404864, 35717002337309631361794965504, 35717030431341704988657188864,
    35717044930193743689770074112, 35717058820521380973908066304, 35717077857491192736630439936, 35718178132275023517595992064,
    35718182836552530203070431232, 35718187448023484121705611264, 35718192483522606496418365440, 35718197169314907091932020736,
    35718201671111695375559294976, 35718225329895984775299072000, 35718230152306964084289437696, 35718234634365014586649739264,
    35718244318901601117929472000, 35718253561340752895085117440, 35718263300317637668704878592, 35718282171620842791185154048,
    35718291340632903822436466688, 35720591408834504276112834560, 35720610346330762830646607872, 35720629151951331110294650880,
    35720685709094893712582901760, 35720704450771655294978097152, 35721800021488277481955786752, 35721818948209945509307088896,
    35721837811128171537920688128, 35721866503125111301449187328, 35721894534866198194791907328, 35723009242211074095521464320,
    35723028003444164447805898752, 35723046744398268271928803328, 35723075126486915606095331328, 35723103468138255787529076736,
    35724218020240563352905973760, 35724236800567668836673781760, 35724255707010763535557853184, 35724284318919628175603400704,
    35724312386505427453141319680, 35725427039735050231386996736, 35725431558682945131961647104, 35725436243251279279039709184,
    35725440921414368856090083328, 35725450725237754537233612800, 35725455207913250785872314368, 35725464736160968015121219584,
    35725479095033821856654163968, 35725483505103929607821721600, 35725488299786851951973498880, 35725493225456236575261196288,
    35725497910427483459802890240, 35725507356858747162774732800, 35725521559655259609904447488, 35725526006041147390461739008,
    35725530727370279077980143616, 35725540091110509118639570944, 35726635724305840021578973184, 35726654650627260525722992640,
    35726668818729885951655411712, 35726673521716661643632443392, 35726687707907421457325490176, 35726702170558857433952813056,
    35726716115360628435880771584, 35726730182804424490362077184, 35726749172459403604263960576, 35727939061526801591379689472,
    35731471428046320363720671232, 35731490483602758255576612864, 35731509206948507059667075072, 35731537541179045389201833984,
    35731551671240323278588346368, 35731566078506335349543796736, 35731584930721298886718128128, 35732685389903506920607580160,
    35732689798165417830553485312, 35732694538981187364482711552, 35732699261316588719742910464, 35732704020892767186327699456,
    35732708651646070960397746176, 35732718445813740139970560000, 35732732447328483196513812480, 35732737207020686528108036096,
    35732741891773105309954867200, 35732751226761070490014449664, 35732760689006442319894806528, 35732765448522555565765820416,
    35732770411373658712624332800, 35735098279002788225689321472, 35735117335397610773175861248, 35735136040426633853052911616,
    35735164594803006112440254464, 35735192855431099817587113984, 35737568168473863221982265344, 35737572966000067051790532608,
    35737577466861505788715728896, 35737596448270666229994225664, 35737601372904393363289014272, 36017991791280953347222274048,
    36017996403327259744799817728, 36018001254491174002302648320, 36018015254846986663063715840, 36018024784507708275400114176,
    36018034108039800842895753216, 36018038830438934809839403008, 36018043755070521193994911744, 36018048386180001864278343680,
    36018057720265280122626506752, 36018067330298074030609006592, 36018071997031757393644486656, 36018076886142609091798761472,
    36018081498190041389283147776, 36018086054390305032582987776, 36018090943250925476441489408, 36018095564664719098949664768,
    36022822826772738355159367680, 36022832087756292766191058944, 36022836828644972177066557440, 36022841624364102258345902080,
    36022874654885615401034579968, 36022879458848725771495669760, 36022883959354533695824330752, 36022893496217074062279573504,
    36022898440335279736741691392, 36022903015128373430520381440, 36022907866622070949345755136, 36022912367340407208533819392,
    36022931477950372869937561600, 36026449689227332533266415616, 36026468181255779321833848832, 36026487384244882574447476736,
    36026515718050707683923722240, 36026529644438497232561373184, 36026543959183563027113836544, 36026553183708802861473202176,
    36027667845729452112346087424, 36027672819039883918795866112, 36027677420565781586835931136, 36027686625419016773864259584,
    36027710505738026507409817600, 36027714903373021195458838528, 36027719957776956742202032128, 36027729385476182790870401024,
    36027738496682974701240188928, 36027743552315829996302106624, 36027747942140457030583844864, 36034912104564893868024135680,
    36034916493664438063764340736, 36034925939954682803404144640, 36034930900429129994173677568, 36034935475508646003131547648,
    36034940180510204674866937856, 36034949753292781178975158272, 36034959069514405651341639680, 36034963792196543414374760448,
    36034968699035253208116101120, 36034973309608197020698279936, 36034978087274230181244436480, 36034982754341162759988707328,
    36034992088753952027211464704, 36034997106080314791766786048, 36035001496881659995234500608, 36035006255887459108329095168,
    36035015737768084899008348160, 36035020533273025717150416896, 36035025181924589885995352064, 36038538881130492310119776256,
    36038557678108531516183150592, 36038576345993702153438363648, 36038604865451950606552924160, 36038633346906893776733601792,
    36038652033919977931338153984, 36039842161572437026567880704, 36042170123494035569772593152, 36042174956540982881675116544,
    36042179752622384452120608768, 36042184547794473413720932352, 36042189289661128153996722176, 36042193985294243635570671616,
    36042203456071365491247022080, 36042217420762037401270878208, 36042222013710388017691099136, 36042226956934119649854881792,
    36042245846689407404494290944, 36042250514404708795998535680, 36042255310486110366444027904, 36042274014507038513813258240,
    36044583417922787493407621120, 36044602142765671406217723904, 36044620993796350451688407040, 36044649384086565079715151872,
    36047010733349149564498608128, 36047072013722881653641052160, 36047081310521606833065426944, 36334777756153862686332944384,
    36340779523265643873854029824, 36340859876917602410030956544, 36341983965587848708145283072, 36342049913632571453580771328,
    36343187948613700795259420672, 36343192652246053684651229184, 36343197503062963303355514880, 36343202097238986379526930432,
    36343207132294332027179630592, 36343211615903043601731420160, 36343216189934021861668028416, 36343220912805484613492277248,
    36343225893250611088696803328, 36343230726690616735034245120, 36343235319642506816823230464, 36343239949481970712855969792,
    36343244524852531328041615360, 36343249505545035160825626624, 36343254245278807761545592832, 36343258895009280479788531712,
    36343263782967758659623321600, 36343268210474455245896286208, 36343272858112990973559570432, 36343277728457343024460988416,
    36343282635967206797539803136, 36343287099217558984284176384, 36343291895729054319143550976, 36343306062944470618483982336,
    36345610502952921897239576576, 36345615410648561796352311296, 36345619875263783503761768448, 36345634354588616654736850944,
    36345638911729177144552587264, 36345653004538372200291368960, 36345657911080687731159859200, 36345672052715658147035873280,
    36345676617276010073618907136, 36345686135032719514257063936, 36345691059881321400354471936, 36345695579765685253547491328,
    36345709600082687807805456384, 36348028281709272485945409536, 36348033132873764592643211264, 36348051967361314226308120576,
    36349232595194350341390860288, 36349251467396858548353761280, 36349265615802991003981316096, 36349270503397537002595287040,
    36349326932347946450303320064, 36350460540645585395375931392, 36350479392500562810632142848, 36350498338027169409813970944,
    36350507800480955257877168128, 36350531210048938992709140480, 36636966275425674683364671488, 36636985532715946334775934976,
    36636994841043886560268779520, 36637009144548360683002003456, 36637013775001552758270590976, 36637018286855604245108883456,
    36637027812611838021422022656, 36637037545256417197880770560, 36637042183344070953556508672, 36637046879308918494913888256,
    36637051480939243379313606656, 36641802328834393386908647424, 36641811735949354388726743040, 36641820867708041723625078784,
    36641825736886353996688654336, 36641830544322345076967604224, 36641844866306214370708815872, 36641854182487154108233940992,
    36641872960766509269866082158, 36641877867529110437282971648, 36641882332574949719022764032, 36641901221004650862052638720,
    36646628440062075803447328768, 36646633271844748570639990784, 36646638031679098964496351232, 36646642477746085520264396800,
    36646647532257378956247826432, 36646656718443762159160655872, 36646675608055376231182368768, 36646680384825453650137579520,
    36646689700861881881479610368, 36646694552503222285539213312, 36646699146392422360442470400, 36646708868037774185164963840,
    36646713387419131753781002240, 36646717961639031979957551104, 36646727553337119934299242496, 36646736925003685319130742784,
    36653891236294141348715429888, 36653910494190551143221821440, 36653919606882123555740319744, 36653933773724426081753104384,
    36653962421808895632814899200, 36653971589734865675218845696, 36653976275524645090570010624, 36653985757443144658779635712,
    36653995128024905483368267776, 36661187643679029895412842496, 36946456073012120617381527552, 36946465544002479559125499904,
    36946470523831990573449871360, 36946479951457632905940959232, 36946489211319804266509500416, 36946493988381786629476450304,
    36946503580684074914978725888, 36946522396363030098721374208, 36946526971446718754306654208, 36946531639090412252028731392,
    36946541082990056397755908096, 36946550602084081571897278464, 36946555508556983834192642048, 36951277930095811367220019200,
    36951282597410839948678922240, 36951291820461884279330177024, 36951296616570721963423563776, 36951315635136425844323385344,
    36951329544085729606545440768, 36951339276656568936175763456, 36951348721389534675466190848, 36951357889421339309113344000,
    36951362895799009375856623616, 36951367600869142998678503424, 36954904523054999926466412544, 36954923442136602554635649024,
    36954942376595011636694089728, 36954970636185760101499404288, 36956122875193613762357624832, 36956127763764188536366956544,
    36956132338268488440184045568, 36956136924302003390069604352, 36956141691372623535877914624, 36956165247870435162509541376,
    36956174987244932598050324480, 36956184155998285140355710976, 36956193674442101387423645696, 36956198315066280695457382400,
    36956203100010950502943555584, 36956212490452352618754736128, 36956231306087397706130522112, 36963371542229806093686538240,
    36963386015107625327406350336, 36963414098978440857515982848, 36963418831865332456698675200, 36963423469954962640359915520,
    36963428247014841637582929920, 36963433376618631418414628864, 36963447396144127437673857024, 36963461487971929200785358848,
    36963466045009752423613333504, 36966993847760305515220959232, 36967031690391081601910964224, 36967059931419509728741425152,
    37565421433987241014714171392, 37565445174586575908717461504, 37565473435286727207902248960, 37565492187338826856154529792,
    37565515991235804812594380800, 37570247875734504064302448640, 37570299712024229205097054208, 37570332915441688936831778816,
    37570337427583971480691539968, 37575102357943548199955333120, 37582351061911635719373193216, 37582365147441887877374410752,
    37582431507830807513511493632, 37582450408292996562921979904, 37874967981094099565605289984, 37879732767782374247285915648,
    37879737607818908180867448832, 37879813103352815252383203328, 37879817926671987369165455360, 37884597070532852001907146752,
    37884629776901294846000496640, 37884639387655083692514082816, 37891836144755189571213328384, 37891878517503350584310235136,
    37891883295902212642815606784, 37891888157556024787775520768]

end Verif.Mnemonic
