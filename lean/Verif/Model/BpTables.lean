/-!
Constants of xmr/bulletproof.py: the precomputed generators, each 32-byte encoding written as its little-endian number.
-/

namespace Verif.Bp

/-- bulletproof.py 36 `_BP_GI_PRE`. -/
def giPre : List Nat := [
  9751461336245381587266503892658759312139483761110743953544416744347378010123,
  20754163413450494653077112366131838895215292382100385413775479193653068759519,
  85614599885397546730922314677472901480238864929027088921840315952906539395443,
  102187262202144556255929507604192860341325461663223305586558332816298713399425,
  30275093358875692482594689427943543890307534157859216901395412367439600915976,
  85066412920211001231171744366158125069249422296683395881440984891847885178933,
  95950259245520462779558190059535794560486053312717809163297550780582630025177,
  109759056649636355307758222783503360613270043387540276841525821443134680441800,
  80974713541052281054966562762210466786386421065222236285842750360150409214876,
  40387516388214627464394105051708819980682111733706973148571311066834917697069,
  40116333962447108757392479578951862859131716710955102849032704274267344320933,
  53535184545574080843926372347494271995893330567135906855840179933049009956845,
  112202214755099275609685568589820302853742654729935716450582399939981593718607,
  107141631244202388430075980501294266234470568633110567905620247597131711189819,
  34355246947987908178513536382125804151552229114189375809495904860139186227879,
  7635296898462049967305925730723965024652190110873089522019679724804767455277,
  81056821764191470885122514462113587148162152087187167801547495889174284944565,
  96116547845453750232385512321481021082624454598748375920579239583270004105252,
  97697340402973728146470042366673970186390983009483929825332054464811772374100,
  101179441285988077161085723327054317036849594256162041638745583639445997178131,
  53036613233016024774834046644135791002249561250388456286846046041894147637249,
  71264859234470568145853124280797910847845219665043718329121419965630863017218,
  37773915506445714569709404746218380357864135293106194229004200161215394951607,
  71469136186702925859725900736216781749739747220843768260352268978891316612384,
  39639805192678393864499762476666300096711686500988826144018898081579951091441,
  1398243120584390315065571658968729814271125485882100641693565546228006360897,
  111498418987227673784309223816791798502336888461317545119491942911814967607243,
  108095690020127693938756953408525596176081726345002681545051182737384142740618,
  60575482886435666080933743445846523590220519246694384909070948778638665601232,
  86906199173341604798271857220162962858470700665578761111094628504695849892508,
  70114714307420614555706179336192116569692413846017456993757113377774424491704,
  87708956815552088573499976204091513683302148415584020129163653566367296616303,
  56773439900960498163759039073827668474117888395863448264888687684637959018547,
  36330656710892317231333569659012235221979878613550303380519309642187292738291,
  13287819864149020410031726581754025192316922748201542188060431741216569589424,
  78930387839961602095781250539884970721965353245426002196957357892600067233736,
  3463984017576196619039740910517717639267147909961974501504381832831279985769,
  106085395863897246971164611160500579924296121085919211990196636466048692281987,
  89477489866631247902150021865045254178917435544859595601058740204292753264072,
  13391542527653562569076160222453216731128693232967355445549487954639962889913,
  98513903558171856480932224027964238226197474370692710602544973460331237576001,
  105547842696048806191646391037990871029144905181094631878622537553726370990904,
  33891976990553455862238623570152470697920912600575087968196104051575900622593,
  61313001645680217732770456358892577321358371954631184332550379591457645188311,
  61667148731750583366894676523207873612488505723951097120127297644713350808495,
  112016303001586225649842064821572997647589822005463590873887722321251429564638,
  41866183976579315858280987281822672141945008714982939119671805381746235995309,
  79148318316853591399661962884677169130728561805823478185385276306300384078271,
  80742018160385676726066346562320438406661482852947374589408298560240175273386,
  3845713790174555137048043460556445227175824376029235736784461656322268629266,
  36575904543379648667054956060792456987276197605159299523009247971354821906202,
  57469447346943367744014550308573919921470200846332599112630048649449676256753,
  54554733574020059245502816965618059647337762316341353586557853645918240813062,
  27647069811678625005736411115486932876303478721867664858540255462899177335955,
  62750207032074406723645292914187390579521429864248805225736536408169436426634,
  58089877743533490114653830686905169470373555096126781106388122300587692027980,
  4499637938078402560734393387811728923889262494456070263044139225383997026011,
  98550470235443035634649349011985834948209848176391787967548401604477607426938,
  26096809135623442434739688210633565156147208212845811994205543315888589229056,
  82991739597825603353949240401601459530711452221674180447822088603948073224633,
  9707871731439015665789892808104930672135063130903394606031375511560409635472,
  30521425293253168340177798207087252931902950774092341551202174228956531811746,
  23192429771946971404918681491422639330842104918556643571673498494238830526762,
  49741613813931662355890808295919004331815489834844913495566928643342085053983,
  46638985031426701433477614419587027051340000205106584771177593347784263026264,
  45715141479768626863848348330756640027832499955573450134259232555685486885288,
  26785657809324071908216589455447648088457980875547405409999644993546135051228,
  96058351895548477711026640512922510279425810100882162751232865378149949226642,
  43817673799613962901581195700092968616131015953182255572419269794883926754676,
  96956219061161043310033668871931077161762930742912448414084647059985480039578,
  18335038445281113312257294149171681616660135706628774763660895420556255098171,
  94510614218552456889719225206227348457912234400635215087969775562582711834003,
  95186016796308671607877760356703516719287646721999421740560780119022545021836,
  13173250624710750280648957818288116917724411337332812785351257750750215421423,
  252463341856334158774021760390320432322420693117296549133321448638622092731,
  92563566286355197238336355633019826290177098216702620977939214819823750657927,
  26509172945557899756927233198644951178763168498130182292423193375927326506338,
  92727811078949701507286195449070958191470133646802386086632357262653863737546,
  1437031755520044955215347054662231979253933461024223619165351269451912404838,
  96314353157660944634533601570325999355553206612756498551092551366350706869785,
  65222699203561951669534743470020819709550133916980983896832936690959752644813,
  54086864039442644915647034522227612681482180728837146713725711797696996752735,
  10277775340952642506162775045429982032913085229379648290277595827287895728066,
  85499291272642456889875845250487873329358594288526987263323528309076677166385,
  48626931521552803497287913573493484251668503376998347642658096643316863022222,
  50081383402278987863711005988292632325563090468585911761996566638606307044163,
  81249555757245129557658508812225107172625778805671676707472427856259394248144,
  4033937302245860643538164246690236230708603724559033580934555544726800851259,
  55087618237735409410700069293861087092593068965212854458920992324664835743792,
  17731040457471722792785577268727017989423246731849552171139208655696452122409,
  61535819030049307427348674558250961201366568962986813076631607053458784423765,
  80714528287626903349200683632824915908504380672179012892484238370862459290703,
  111102341144192000234847946138197917162379931848007131895320683709441871368213,
  66406120955191326609345734767119230704450778830478635379448687733098421880990,
  114885726701689517088311560593228139070563706170104990512302913151152718726801,
  48748867020271446882177108020147704094319769330243279596578876303356215987103,
  97293291183186987647805762094515230105718312478233441138525282677714165161391,
  76369626772136568743534266480200669331495491439550937956025683847267501542604,
  24852084741094084689826611505422754788742862571112764196759776595109787716931,
  111737160531005615212579763975404554603779209778437800689152631620112222375523,
  107230796384869738280227890730145763579110238593249870037918687889118714402946,
  80884648939405243367076558162904672467194518549170306418017921409607208765541,
  26955762671428443019546677935033743857305823770520412625316654549090203645610,
  26974868662757517276169650359456304028973725594940437284246811512978966074801,
  36233255915957981213537042220134717547071747279775268507471487271873103231970,
  23178007573806475861709490614625182523241616769189243010312268837227941983383,
  111989103084933785616459785687336327478397831354989851958050415677615743607272,
  23602789661299830979744160521433708645240972248584319466781657077015156285479,
  81429139485014691357904703479181162257576882503680869551779265326377711092074,
  21463015919741475206652347444980003380374477140524292402993409643480801621787,
  33633241260877247013649194715749824739004198339878657990978638575143698088664,
  114311514642133131025970756066138520902647707365175558128172213471663557792790,
  42121526217052408499526437283519944261475899654015347562738082218656596774823,
  103521596134773780165810756945405897796400740084276153655548238364791571635746,
  93106642279792303490738918195128655943888505702930074923478967760619460676156,
  100826143157654000212629090589744108730728811489447852770907233897691788761293,
  107222999577634635768774756744763019216545185093994594303104788175113452519789,
  111186791403267860822657889531187717514143677628419491894289729510206605250024,
  103828043172163257188556846710156697074342981480069543480676968436884554717575,
  68519809159115763091835485633437923177293690520576303559572633684339320291622,
  57152318605077825732695995149086124516847557077629183406082128554640768802213,
  26992941358596428252590648191888435520201787146469369249718468673325452229157,
  8474825446489210817904782488788715354096899789409277874858657821397372379972,
  85556342384015638866645904621406119815232170430357715535710971194706762430646,
  110953923305274574073129526632972904041997629318978732646436445112221986409096,
  68353850779128955412504989728354311732399791945376525484760592472103421207223,
  114456053135422569189453256409990581159213264742227812980338496956527282515610,
  560279434025681919661928674575845595692537983624173065790599029463067803074,
  87835603406177000757040392310434798365347604320201580645146995651301184944315,
  107321318258699691158496502066346226259428938359015690074579670513067584343060,
  54055978695569881923978100856868230828288477803322929747710130195372584179345,
  63987192887896893259302080121602291744301657345452326363097397556759249947641,
  66832043038771743318960694608735590819011789543212631996948093216734211255552,
  58239263602360777217223155838261975075572211408639547831393053582579382051400,
  99677215343904814909512454981763397046278098846579118291875680351325424237140,
  37726783861751093544495127830301997459231857642658971179022589224250482856924,
  3926761621200733785201416234573958868339672726382624006408393831065193673184,
  53019524383030184638916981404610108004760668297524656777575251278843030959396,
  65961603928883131379610810094870560636711747155139378831132211234024619639785,
  100762327784985512952576988466052712121873196605692295148179430044053818372627,
  58156380099881811750706928354936197377170477948257275968941885571284364707801,
  59155866233966205697683486365016622855222019848538285295157241960415944973415,
  89186313446309844162731773642537615261879882907234589924345755216221426956521,
  87803057528226017996169294209206373308830650445362620642701470208249196466697,
  45017741005089890946477613051903066997421701657808739991622850888996005865542,
  86693689243244603562010267759494033126824629938066746094640566031610817384900,
  45698372179711588500416690337806328295601734107326817275645916190773981608854,
  57185216361128952313816306686598442230895521845614477481667650518579869378689,
  108016770683922606308955806056804812041721377127158862727656208436861294105859,
  48888773860098315174895942272949183163472934622924503024858057219065861775819,
  17786268143639201781685408049666106251241060694905565099377381861580844149673,
  30954352218862893554780801273710179898240796417309281798065192363877809541568,
  94955356503197915561312633968486945797003237525701013006856111253191610519189,
  45584841202484966063667458236667558903418769651613087959091531407752765948335,
  34055379866972920309100128294003742192083369629032999568733094420199232318495,
  6326673697549808636091180248882542948003272485123359573148543098332143798258,
  35510794727709690491099521645617026379213882261767218063094860370276647968378,
  94658397764588089121228281299275337617328113336046198594293354052788350723681,
  10441182953702050345834056977556205115336889364189839417831535938486675673138,
  82872343902849457725107142781456980038068384879241637007269195244645204477501,
  38689955778889072429125878782114019969779190156697840299556877531389412374551,
  74206264224458199578861719228237516579900127942496204389243729305608202886100,
  58031194263021170452638086159042506221479544714040903818625702352088207105751,
  75250796281279176500326565720418072255975985789047413783098093823040888937336,
  99811390542293590713681492305298207102123203829313070252621647724273952717273,
  69237013841374602183490572150814014969485073558910926725597078698758769458771,
  98814446590175701845557656249917925078350797071392215267191813936160551024615,
  77923132060302769118434996466094099003505610203855259115127884137233894687728,
  97456208975358693563525544020478147476103734826148108150459596416381882951819,
  96476058267721538469882381788435078075963435976349076191281143993415921059829,
  51107664662533523673221967662291286016401771924759796473643149824381393865880,
  41104376779753223487835581677592993837677686534420845792417259089516032213013,
  99772574070812375140352203268713526624391204967393290813810845383556878128984,
  49784025678381841950560593702472985264884992333125205128721978364437016972056,
  99340765693472562068547806080595086933070635084421900085200855752822392430608,
  26647031590848027862781117576323094781988549168517221761798779907813257597714,
  111398705211912429243048341812307519349133552096975777517405148431328718602840,
  62553133648892313664892214648276623491277482800825527556893691308804522902588,
  109030898947614006739078265853582322248643102257669196040980358172337046647263,
  88222302397671471280409802746944354121817827194095444713541610781167588381017,
  32111644711051819670109180846193082802844859817715254916307632153158495903486,
  34558969817818439274917799208037791139572412955455651549510096035130992583722,
  114143105943672940976119344235006398493524817784290588209303805197575156008104,
  20780229951270311225928463982971341837760499933119167281233199007271795228218,
  20655252943314924361688564011900967697157955511329882509878074892853792034804,
  63976822268241153052604609800638175482488220185156106931095898406689712134559,
  38384496412360823504902703452539818097922185317677481542129157132829778089643,
  91515344335381383460598282270245666072894275056561407962248645917633946876254,
  103742044156784934266396787955979674424760261135275488955806929817068966245782,
  51184542505168664765751162594368466754105396530733374045959224909809021690638,
  93673094506873802869865348565307497824666725383438939315165921367879693709732,
  73009295104344130668758861269721436240333675814413379655720535396405893055351,
  7564190975048193390943879476774265148823936816779310562945562923042827073266,
  94877021853986161531174446521569420306111404492147368588176207914045231458297,
  100875570761862093239483818930874119556663186566775727728686274982969469117085,
  113583068764740829955037135306503214078291757087111725143167065194684592570556,
  71735497828259262097644437860122671893804538012610125478529323736433669885076,
  30922570911268324069958276187318009799451324701484588895469357688640836031537,
  73767259480722137765903708183183237162064012060367406018152629965958671010079,
  53063734796795081136979626145479031465468826741243128341599907801143106572087,
  13861468062578672924214824564998360774442114151212029593674772658391893804801,
  30214444277792840887352171344369800816441430174009456414050245796210989501112,
  70730101233960021195569248672653887002076747704448604747778694974144138491632,
  52469690233866676762837279818632516407547845867032275077170214743404744331674,
  34939491643119304194883318139446467583879021383054913904418779489170656350376,
  43032878712701294257345061445788515091996581833271120329643004341131344337474,
  57816957853294499464566177745473607876568998137992615093146048845515123214776,
  83578472878542045670472961657997123589165267676655980937321624364444865953546,
  6274978520630935750542523192045842827060430742704206198740017966246360677373,
  63929106991153990387533240549123614115431274341489592628307316687814566927575,
  62218938223535901921821184857805911124002832839813695130141114777841672212135,
  3865458545801972765058400989295961422338203117842499150746178429138274196232,
  88261680128325096594118907485688727007410482936688429579457564770456093370274,
  78803686431891518628137512072971869869549481443011143025958822932090247095588,
  7133989270562249200374417509055779912896814221376249722620940000874754812746,
  6147387815245092210856612016226712808548473078896998624612757618122560286324,
  87454269460603009241582410819713210516405330371274176584102352215664279723524,
  12865317168276136196538834449382968057945775910694944433276766463574529569421,
  4891561763978112400809280605808869497686350331233969393495950935289456103375,
  98748039030168309033275918001182383755677954224634773002842739129799931848634,
  2748077390442156733652758583518753534593011250454308408466887272207848113699,
  99248945337128335301426500012313637937273916400846387953396451871395662873721,
  37556664102099275269858468089170928840523511800775777454313135257418136332012,
  62267968356651674618161458871936496435280180073542293810442004248928527005581,
  10387202513223273233304359421952964452511359590988282512088810993565741804032,
  109577950336743735676796197834345156184212922303789171138981971171417940317390,
  103023473222279269617126313981659293682957251714671393293073420650728542306368,
  56233024276184691598436087518087729545832818766628883979082141722628336799859,
  75146356568382221266379629799370160906866508472766136405905740492376697632144,
  74925844239563457614936407965534353866936509550036135205464303457964524766524,
  31928250080693809007927074025562475181605028060005235635503155359376704484083,
  57540306270214027157303889501028235794842594829264899165336661792956213767188,
  7412521074304065257058976926447671342391195148399217913361964216557752321437,
  878287771286425034589221141675184286590668909861485347407833599453886527106,
  14865473631988242146058685881157414364642024607525077192592300298953885607215,
  66224372799058445273119004891097687903012393577907242259348675567882404387884,
  54145890163689089920652138954830210261625828555930207195316900982127149025755,
  56611842711226930955062616922103169376900268921572738912175049631887579266094,
  110732605551900367884746514915540857362582445772966907353448857371811081023665,
  68223734007602189191042966848709945334413511217368325081491287491694003249606,
  48258466454467968131663675946748954587627827859960849248177111330175460423547,
  71520655389929755556589615433707610285849461916562517301815064991953047735485,
  54514591543053973391026247018970097686818998714750407389366703573277441170432,
  109985317679306142921022600423689690606065675270815115646864071169356627209029,
  79269815588506136055211804276797585446751431759363530288403938327181349536711,
  99086339051059126903120993798266651789572894357225527725775554060387701443607,
  66756635049061777702603996221460474354061528481116382797694315619665921404316,
  114500403988861497921012273841779984336655032186776050384416349921846537522912,
  97318968306229169569532620488462956455770407921012813149535312888367080168084,
  16026405957781567100172277034589090712138300836197537359922846007110705325017,
  18226167285021194624145245271778294879727646218698628619122306019960592267070,
  19407108961063229650074414290759407105551976261571506270438087796884654438861,
  82557745419067348573553991326553948132940671121313737801545017134519331771310,
  96371048355604307683865134598266772620130108708757855129173213182234996922999,
  66433760593088079548038554352471986262919574659362199302385888600172080087652,
  45749390359607414997013785306922697025043355162155086562294914702397995161115]

/-- bulletproof.py 39 `_BP_HI_PRE`. -/
def hiPre : List Nat := [
  68643079289287451705532278961417427174783008395483894501845912145301378349634,
  32130944462363353890967354448810561931186639683223401253611150420639889629925,
  20092454340803173095796209049741931937905012378718436015268725719623616939407,
  13491215216676716246005517156753335003796505141634209417622243695339099132319,
  54008819345078617829778199892046697755552334286692355091569058982098028172823,
  5137238272556789422323500218674049586177880223306951808512182771882203618597,
  4552434232085168540874496334009816854225695991488052096563357678020864285832,
  62678748055513491244021845490246709515763631938083187568969939972980690272979,
  12488986885864542528873905960565109398215073109353788196938608437467827825052,
  82516058615496928953963321241294103038228351190847167323845212947968260064948,
  74832311163709047984165479205596010801094297912659695026893149569474652414948,
  57893801639050847631095575329965943489046308380696684101105846088495625638885,
  60460083343081510708449299487514539374073239409344274013372351175507627142908,
  70925979630901164167532596395274701571293638843582528019933944744678355945472,
  54324532392622660562261948183346383483193089782435850945580726626423335311219,
  103368995115194415144164806354927653431695029458167639477941542973699854506135,
  111924268905768641138727454319651785482680418144135695869479786605276832102928,
  45641362505319167565302352085686031116656994969459213394045314573749326135326,
  51721156689861349357718974860295557420953186100723132311215687872480633511185,
  76232432337580037546463908445176486671502730530907019305593125924776297708932,
  33656241382683251539973299730072544574948707572633492517483404735997644810760,
  31004973250566763831845066055708110555415941157137527140472121142259816840939,
  99898909461737209972058182373417610492608668048971499322918125964021895875900,
  114542517734389044839559956981566232850412207645930501087083554450294419533502,
  6531398203383159394577378343570506726558720766969589516041621827418246525419,
  100314769340988218745809664922688545480619798410683916396004143667902931126604,
  24808574533969015458972795207082133466351854276812175410127435686585649418524,
  9007911748820961505156794963216360951769082440954048038867332142469572026439,
  56780321001660213577000673701079016996689796749750651142694790249867678469934,
  66108631620498120732367843091100843193785885204448245718650367268464519971327,
  38893354818256774764812691869656655416971960294586033592318170819014586444845,
  86420697820064311633396623594576556812306085848174820892328189634350227638787,
  22721914019166941512622799963489503239505807683920249163522569496065614935323,
  6923358190366610239849569367350822214021879417215984566141488296039639947710,
  88434183204761861282253483834441252242209472174517309335022632664234248234075,
  55196602194511205757244952726203465170254996358203813604113941004581115938014,
  7297109331607834734739522675951208759866083356318553831507469236356444796481,
  75782449861812884073357697409756314428718318014590943933984503771755870599078,
  22640764080559973310550977488637873413720265764247282297476848029532446569003,
  43952961176151430512621335833460215338068051369415159450221151673327429012481,
  6538836813867037989070275609819519344482609973942518938293304133675376671632,
  92538957335907281727028367853319448563199146218654722076038760509879614049432,
  25549207293172978795824696248206612138324243556419848879997558247362746853415,
  23867582788637622324886125496875138414967717402483662429048309314466745916534,
  53313600632986244052754404268014728971332307725152444478309620985150644167801,
  77822699702199567142335516722060248041484519109549233093952649120363425365025,
  71892866999041975922823662374468569608326914398404990816551710870746826301760,
  96392547544903364569274977717960894330204095378301302160067858414043007834405,
  27712501538309019384589620552223998460189663063776314234169371719401842138239,
  99911610718165623020576800192024480262746564385313005230148607092332513388663,
  5673823002104904543782579356512765354720832390155672973643643865285733223409,
  85025935587644813654344305540960840253534838207054571404051852649380924418142,
  14102683200272820927797477824406081930404920333345916935921415222506194414847,
  20065528570588128710951600526081999596339030194826354141373922568901076557707,
  33522314283790855892986146371036509200228571169031711606492764984451451301381,
  14141138698417840779737403099332237637016191596675315806570559894495561656142,
  26008085580566129269028570871811757062842497889464643383687632386496999820957,
  87083993843352254086054038522335559117326101070706200415121263439886168474878,
  89140038938221626221397005015380764963695442227164506961330906086461335305721,
  34630263555845774615661545961155191981311857714036103266379669215718898426902,
  48710955920707083489483286400982814023827948680675123435669426578889471966806,
  66107907513171229016854144989623138966340594029093258767032072603661840532516,
  66286166701756638568762138964821337839544226332642861722231555742433387776417,
  97559178003004020069472434128097983391229569217180559212760735681530352729102,
  49394094512884814622463330804881433061450508956403555448994256333179683982750,
  68140698601547262760777882837169651282299333417957757457801407758379458507351,
  16661138721424630556137292548891464807357892986447690665506950741723243944649,
  27174474960824940294792007528018202072336301671847530428564466059499598936729,
  67985762374410091989010210790184567237522443366345287817000043970157042942607,
  22915136077640272113487300465585961818439098860544898248287444591938059198205,
  45536516673804638776837204010252155927616256410014815531773112427790429027361,
  97327494283927661276184890849630884151452135285971618398877303918179841420880,
  22178247856112154089016988055352468816392839038727143639700012381682286137135,
  95691514868008654300202317651054934466539918689897225470123875046024873797143,
  91807462969088524358782897426282492044956900590946178452452375686136847479919,
  73585347586244569118289714578134365592755489166927927127212283427109922923861,
  101863769420011525710660635038512314703317028027642014734614102370100831195969,
  33753477052462740102458150760573416598395231340659037969021610896798962863604,
  87200250286061409578176569606562322135127379034267332425288361774971556737008,
  47885773555121984470632445670860479751720379563872680815019692782003291501259,
  7318984470034210929799570262967944777921820741345852637312513211087735083610,
  57871827421299667149979352317689717229913210661183405248415743326594926693518,
  32849554606936461694894240789961868140694538165422262065581396659013887881372,
  52835256803872845920519542173044861589733671409342150247949155711075118817368,
  87301252894721867919103413435563671071736144728742066695047845271208692994925,
  109555188609376630456591730418588885653641221916887089524861512371238823466655,
  107119264498070755806885765484186137527218980903177453444215654067903329443668,
  83195196748056313280083152108268070055145153146011384433902941701021197819271,
  42494519961552070201530128871928237556468797517265354892431894129077096683909,
  110753276117818715431962897205648325791908256119351852094369206603825898767286,
  52777932048765421504125820317987208066982171142112440573208492910327690787466,
  4452325826275201264226020069979134388247403333507864849873592631768181722523,
  96272057390621381769639220676125364623852329995222629351946527313426579856084,
  10846406952024319862905599289105063878843655689083607694059321771923247964986,
  114891778305471235565495702258795657352034839883854202002977184201195005401265,
  61515713992585892232864236640194740406759756707633158065468483868880268135617,
  64947327910631457279448996660366421138766517301652401364282258874697414994177,
  30266092680519235993380769398192525859307004167933185444387046783842963100160,
  77859797113098608049639029982352698591215379496755068639982183233359600170959,
  42773752630473424601504387762722499493333216402338381431836881897227332343867,
  2310529428727451025168818880943608089784736066303426412647450444708232803184,
  107833114013829399047758501045793101930725096677292456459951451058729161967540,
  16129692570490180738963027706615423263550764755132680244721440690671235205065,
  30676434027217368568801455101527799292127921400908564259623500926232845328789,
  1668168463610578695620359717821392266161691008383083192117806406587907373245,
  37115386091738235071434092236199071358998757453521662195200716256519845600191,
  7991695187155786971047065027994556338064453588144636803059548219169721093273,
  53839935979992389593886481584950706074623475518230492498902391883695511199800,
  64749404612848236106011075231717605827389374502540183795545750840877874468136,
  106175551839205449578289913848090241508477465293708178597336903804333734525963,
  7903988074287112608804540656080617338985249632091272125532597867221364018288,
  52690655030794096455260325981062489837128516689111570762109778767763551811095,
  69532881293220421973513759052877026345668304091162243302726556221977027524073,
  36242768512113613270938139538054814625062925099765482652059809208051171538197,
  74742658334385493427896540305700670156394987576809691313361854841357268873049,
  113617742389629935256817128513435748868984374844453537136685960130966870772195,
  40656463875033084791884651372872406648651014881205579082212883617037094077666,
  26074974179629847154290235851111426125986768064612791755374304180043431094318,
  63043557820890023380330270407046856807614306982777043835005902675179232796773,
  106032795839205126408358693430284055003044492155447091867347880148338999771610,
  81195434017781503664955464488790865658490588225796285838775797512036352233242,
  71918698078024824841869916055338483900015575574641780704935486333603142310692,
  50723636389318685543132378268282687129918281375751009619143941306348285836065,
  111630967278487740425956428319283599491249887166262656902035433132162008756491,
  9079249429400377280041344459995827317586520375233516469974343779184977128354,
  57140795970119509960175320619526768512207475157225328106342422777894442817316,
  30672039778833110348221630188762670832970808598591575692335009543748805705378,
  57112506567605874426161435078562978554251895533243926460909448610374947825808,
  105892018937951358211846198520362427612723195170606358841803029698220251668692,
  93777985406880594403216213207582348201476074859927974957909789175258347803853,
  62106380086875776429861696000488627448708713382730359698622199773704689949625,
  73842844297222117452694906409152403135212901171420796780392116483422626572920,
  97994476652833081010450126600427118062718880288336430307576624829307792579056,
  14155330330341321948492572635819601077758709718533145644207369941294516897473,
  33800556071887204229722792222003691401012465976281555807740291380364378150334,
  104128557033530673965022344143055659778739530187468876174748909225148586601210,
  98065770246739516948117343060515537994471236798114960079253742316978972898668,
  30698552189688409339596572805241103009513075927293943226794387879991577441270,
  100162027511370565727596075751271594718281091456599852764590131658635449812569,
  109234088617329322870795300355787613509182019183117723365828631404182746722923,
  93769593485421762717342816453763737105038376767119329064222529752604112625339,
  77329847636485544693778397213544284559479323903542585289468578936889727762927,
  48180805554441613031924755666610044997300124113412238537259900666496803282599,
  44817858454892309605326124122362067384017972897932401768054146961023606581666,
  1437668406617506185394195221068372020329003802172896538401913428824429125183,
  45593885967949644940313064949307822057224031953432067253977682117586096999468,
  36290476750912968317334948078514082068496063876952979211367156256682043679106,
  98447328679492167319522147545120356464283998127805598471969425606800999341077,
  40474141790543542375276418138616199380789176816186196846214172746189016973064,
  32775099987773962897977461006462044948593164548875103036922013388349915091767,
  22143352069085946881515426715822583563269605896817116156433960569487372592788,
  51612043945589991220923151912148718176118140352654465520007861577438094580007,
  11671119057980585772258240248238151741802732109218016782737933277808648155474,
  25112671632218595731920684988151735558076047048637829195898125230071830814585,
  77573687086513491318273073419341500891427714484109052902591247156922225386940,
  89800067254846843928442847847454073892945661779014672965606286705602601582404,
  60237829960844662107545243808120501861046883001925111264470281904524277599707,
  100692037094381288654681970240107241469747647516942611718106210719521756147864,
  31190673672505172865033366536075176131699913576241771213290436293063010436626,
  90388764436496917616268184298520950758603266818824054712607557354207945686625,
  87640989247289177148342508070325756132428109065439049227797421597698395670483,
  569446063049731665201035771947431134328603934746390476683471313130784518321,
  53372316828181988883046043345996652526366974615711042214582410090794783359128,
  90824628409828140977677076258929010107420169774807032220271202517802498532093,
  7990209321677943136674103357042759374362344408626910320487776804249367476913,
  16083953053916897289135695426115870359122344563273170515803632334148083346205,
  36247387493248716247679168219444176723295096856570607891007402467849868960507,
  69182911574437694502294597884093281982594669255420081168090704376007974323935,
  77580305174970922982691701171003656432844248725447751300604204574986476614911,
  101908156858172467523145668472272785863280864989698424074122228926774462983125,
  8284243024768842772888101994981476542263619531043217764217873356801473630634,
  68795463532898171129036262165552909795259340909259471604449813657795431480632,
  88412509522524380905018152803725450216923373560685629721514332194565468172295,
  112401579398352707812113832350892490649918413527105002063524213044575013596790,
  85402834146479907811800150047552387362166939887045173941343507820849036296327,
  6534096708514260341149167745944031828573457741428016288385117041387611542616,
  40156337946896195085537996815485772464694328276655847308802210420388600683303,
  75253585105853127465565543749003586436588026254972423211728098668887134899788,
  5150665933333400634801837811629515940770884721301328983999921752408545300495,
  13691197487799544407968424095957296927926102951687815704546220132796877829301,
  67276370858055265557456275014802287457895064207509192486258601989410870280111,
  24548521892516163233997327660250039465940654474316728448056604190624879476696,
  5681032074094570121217936435028774144349018402437642223242935056983230605570,
  44898455015147029615120690967872601443144705446193437212523979973948321634417,
  84067725850781990754636274279839641942473958779075221460027294438343011599789,
  69506011897659464651590977600237699930098289070550544065547717003756605509965,
  41523226363875965408782977504490352557204023488489884356732588386387431823637,
  70518544870014717500804967418225258767369094561760823967956762808621469600027,
  75947933061848617600175493946058707362264543548670735898751994948542713140935,
  30603174315642379846070537787105781279715697842020768869578414111493292277202,
  82851475354717898359098418378934298419157008490349238443400893029074904962643,
  45141794903970206576441505404872732458299764565768605197683758455888818189346,
  14448435285295645132543373146011712392459886665988679440429169109952454422490,
  97227294945691131822712201976976836068699681964841170783315499713258026677671,
  96181757650609676425916754612351365390788066419570680883969192820082603480288,
  47428678802015712137972542135708180823223124372662863074409129614802155059813,
  82658448254125010383696535992614604211731771355989193920004472200974836325710,
  86858396900211655137197267319852427241566657020547926278915791326579523680139,
  99799994648844139638094625748265906236713246408034726914560998953669726540430,
  10429232455877510428311888386095076441589094741068573635610588812901975401084,
  4681576375918087388109690089866113013566972617845032360716232831323246303030,
  60789379621764420980367636093087242783989929600671962258078304745617540082832,
  25383977571772733223741803602365582722988013172344074377494699498712980556256,
  21603293077202996450507250156391374498697532597402111020938814582583533597259,
  82667539621154455884549407956898025108020495432165759310764934339597173319468,
  54803664629328210605771552738402367708318225168804752450648891823543184998046,
  25757535107455817062535847340051482915244188273853868770900124906791626454049,
  10951623985312924459417920122307547807496817185700201516671533701538794552993,
  46071322220140452174321025562236164624302305195419045242515864161606002268660,
  11535361064370372034632955449438546955748899155317131051492952054242372718837,
  53366896961924865984293057765318858293527678296173135516278796816239289764034,
  72826920822034136102571995422215276511484216185448602862844863311290427840278,
  50661066913852929541854846061747194129293080007501380715216013128767135392208,
  4204724185681346415401174734615271196669576544147494759766312731871804650051,
  24594312237768283682079302649211009181943926466010449658097548436569901131409,
  45813088910002267362988250452742359298114624097534150697961495220333754221934,
  5564726562887221765549206078458859113795469973275037832838722880977333349547,
  8560673484782874477727485963674886115016273425838206595820826585565410493749,
  39395273782278777273255192953434419507242696475835514526516209038799850313514,
  80839477230906768996004693579382661887131873648588169735271932892063007494144,
  82021109259192965114637772842445427111318033806412796987449912345988571599144,
  39445943427606144008803261030015037557070813555039604622907958163742594847848,
  40167386906878878336711722713869652353547740862912626163402007095461813468543,
  95649094563291682875423843730748559219513437122980758002199253889923061531983,
  13827674009183063279645192263186488955768857703521425997297769096357478505546,
  12363035967073356877634616488613533988807185951083591097294199273229406365888,
  22331680356303604757761374109317859890642933081460784666223246408054649100963,
  78803353176325234200544649243462855311670190330455767897879527683400935478314,
  111235747514656404857906566134219462880723748193804766163828745359837743077671,
  68294866857506796007845505862197709276324152451293802763561895250511958726808,
  84844794031435155323275741645483482823086556424890487295160314946184838402911,
  3711059372899392493743393172284666917225266805619161722282252501781316440532,
  77902114114947686109856992428237956972335043996686181052732094025619283081950,
  88658940273769453343490972039111870769783704200299370600264013717161409932551,
  56807548932328892477963060383722549282136903013515655624196089081070722187398,
  2872340609562087799669435032799254675832213142107611581259845501761859744607,
  22728303331784713639198627186792979951537069791192192613476520907008889956672,
  57507341138689773788502266482004619606320139047743719953909334323710159628821,
  27718433110005233065368073338275708845575004262432093706786760911948061443558,
  21108698698774808882238297838055393536863249743989389775734895234410384590746,
  100888444949099482445309683465512808634585933936802851204391598936102240687948,
  3312415027634949839728086056474814706404553080957012191210896011538436746258,
  91106981491552205734785307970547630333458278194489379020684821482169758773829,
  96414882496906058930272980903289910450350546449746345747120209245881272346645,
  87936872264729862735849815184412891880237842607768351516952550201975423834300,
  13830017161606345758906302019222722264065135871127520193617232057901752743230,
  46402067229830466123980686554962920066243827272167107214242154381524122399441,
  83572890077943988976603506371659890293083391334099149439548106766952898660806,
  6044949059600317737334687317360676649961384234431831259311370265561241299879,
  49783946429138486502440802733772066806302630314816499415476053106295723610668,
  10903317235731073848458376211369410743197947327764591388615082029174227216771,
  9418028049074951600847571205234685443227707605314233727648962302208590593462,
  90714774453004281633938295123174091266381952266224058807703219363669285163399,
  16843053128806032315828236230803336069204104737517929054049059464362436815056,
  52275322216997225371151238849782218432879142152929934202269179091869361345713,
  98876339220799638718066671047764699243163674379054856747151266583488466689967]

end Verif.Bp
