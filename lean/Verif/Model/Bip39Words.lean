/-! Word list of monero_glue/misc/bip/bip39.py 2-2051, generated from the source. A word is written as one number: its characters as
bytes, followed by zeros up to 8 bytes. -/

namespace Verif.Seed

/-- bip39.py 3-514. -/
def english1 : List Nat :=
  [7017278296155975168, 7017287083743279360, 7017290350444150784, 7017293719644667904, 7017293723687976960, 7017298048878641152,
    7017298091894243328, 7017298113369039732, 7017298117664178176, 7017300307872841728, 7017561931753127936, 7017561948680449652,
    7017561974736057344, 7017562000471687168, 7017567446256477440, 7017568522591010816, 7017575194612230499, 7017577393467581696,
    7017578467377217536, 7017580187722186752, 7017580640563232768, 7017580666376159232, 7017580679050523392, 7017580691867828224,
    7017841254960463872, 7017844070512852992, 7017844523152965632, 7017844561841189632, 7017851172030775296, 7017854419035226112,
    7017863228013150208, 7017864280185988352, 7017864314361282560, 7018141417044796160, 7018409637870436352, 7018409698150055936,
    7018422832009052160, 7018685649725161472, 7018689594954612736, 7018690069347172352, 7018704324091969536, 7018971488220872704,
    7019261341001056256, 7019266838559195136, 7019267321465304064, 7019268403621789696, 7020093063246643200, 7020094175643172864,
    7020095249308412928, 7020097461410594816, 7020101803521867776, 7020104666419560448, 7020105102241300480, 7020105145157419008,
    7020106244609540096, 7020108439095345152, 7020109512770060288, 7020111698914998528, 7020112839742324736, 7020113898216882176,
    7020117179696873472, 7020374546686767616, 7020374572523218688, 7020389914105610240, 7020389944295424000, 7020396532623212544,
    7020655987639153664, 7020658169314672640, 7020658173441635328, 7020662554519142400, 7020662584365809664, 7020662610471157760,
    7020664787624001536, 7020666982412320768, 7020670294107775845, 7020670319541878784, 7020671414875550208, 7020675825757454336,
    7020676848110428416, 7020676865341089024, 7020681263186213120, 7020681910024142848, 7021218963270926336, 7021234330586806528,
    7021235399799472128, 7021235429923880960, 7021235455869216000, 7021237616179675136, 7021784067351773184, 7021784120659476480,
    7021786236310257664, 7021786293772222464, 7021788522927357952, 7021794615791452160, 7021795051260870656, 7021795094445424640,
    7021795135482494976, 7021797319177928704, 7021800531813688576, 7021800549078269952, 7021800566307487744, 7021800592087449600,
    7021802312372846592, 7021802747882201972, 7021802765281394688, 7021802825343724288, 7022073891744907264, 7022079824763289600,
    7022083106419799040, 7022083123575783424, 7022083140746477568, 7022083192184438784, 7022084235861229568, 7022352533745329408,
    7022360232919564288, 7022365680606052352, 7022365697970012160, 7022365715251684453, 7022365753586447360, 7022628545590423040,
    7022629598034657280, 7022632948099973120, 7022640638449418240, 7022647185849319424, 7022647214044348416, 7022647241650077696,
    7022912210865710336, 7022923141557284608, 7022923167370838016, 7023189257791471616, 7023189287856242688, 7023189316226514944,
    7023193690372662528, 7023194798416723968, 7023200304387744768, 7023479561526444032, 7089055560288436224, 7089056588487225202,
    7089056618695884800, 7089057683696779264, 7089060538155532288, 7089066454177506560, 7089066462784944384, 7089066499570139136,
    7089067558001639424, 7089068653200605184, 7089068708885299200, 7089072632783437824, 7089073068395003904, 7089073076799368704,
    7089073124111286272, 7089074166086762496, 7089074184927576064, 7089074193558667264, 7089075331841458176, 7090180267939201024,
    7090180313439010816, 7090180345457868800, 7090182458598188288, 7090182518592569344, 7090184677125783552, 7090185817211338752,
    7090186890879434752, 7090187956172161024, 7090187990397616128, 7090192388294337792, 7090192414358372352, 7090192433836720128,
    7090194561590362112, 7090194570153653248, 7090200130418114560, 7090201222975127552, 7090201231631712256, 7090201244515790336,
    7090206707865092096, 7091308461281797376, 7091309039434334208, 7091317169807425536, 7091320464047341568, 7091321599787759872,
    7091324862093852672, 7091324932558159872, 7091327131538554880, 7092150592826507264, 7092150597020811264, 7092150635675516928,
    7092150640077796352, 7092150661696978944, 7092154982283083776, 7092155059726712832, 7092159436046729216, 7092166037411463168,
    7092166054850292992, 7092166063439544320, 7092172589853835264, 7092172645688410112, 7092172651728207872, 7092995082063708160,
    7092995088975921152, 7092998408985640960, 7093003850709204992, 7093008205806043136, 7093009318202572800, 7093009388851429376,
    7093010443484004352, 7093010479789899776, 7093013713656086528, 7093013735281197056, 7093013773953728512, 7093014875890253824,
    7093015981566263296, 7093017055106236416, 7093019879527153664, 7093020979038781440, 7093839442693420032, 7093839468506906624,
    7093839489813970944, 7093839511540465664, 7093839524190486528, 7093843832025907200, 7093843849581494272, 7093848238779793408,
    7093848243014270976, 7093848247285841920, 7093848255916933120, 7093848285957324800, 7093848307499270144, 7093854835722644585,
    7093854870115844096, 7093854883352477696, 7093854887422722048, 7093854908820320768, 7093854921799237632, 7093861501588471808,
    7094684962856960000, 7094687170681634816, 7094687183238594560, 7094689377899278080, 7094692702247190528, 7094695956154679296,
    7094695994809384960, 7094696000806453248, 7094698165586427904, 7094698195534610432, 7094702563516088320, 7094702576401252352,
    7094702628185047040, 7094703231829278720, 7094703684652987251, 7094703751520321536, 7094704831259082752, 7094710264603344896,
    7094711452396683264, 7161113057176282368, 7161113087452381184, 7161113100186288128, 7161114234333626368, 7161118565985157120,
    7161122964031668224, 7161124093608067072, 7161124097903034368, 7161125164973883392, 7161125210299564032, 7161125828774854656,
    7161126247198621696, 7161126255678193664, 7161126260301627392, 7161126303090737152, 7161126307210723328, 7161126337215922176,
    7161126350335377408, 7161128446061208832, 7161128480722217984, 7161128527648615936, 7161130226821365760, 7161130649597640704,
    7161130656318095360, 7161130671065268224, 7161130709559803904, 7161130718477680640, 7161130725037572096, 7161131760124690432,
    7161131773009592320, 7161131779157327872, 7161131826367758336, 7161131830478635008, 7161132425844621312, 7161132844275689216,
    7161132852791214080, 7161132861371675257, 7161132925879386112, 7161133969490313216, 7161134020971986944, 7161134025341365760,
    7161135058659573760, 7162246696748869376, 7162249965370671104, 7162251064814862336, 7162252224573407232, 7162252228868339968,
    7162256562154373120, 7162256626578714112, 7163082312844836864, 7163082325612298240, 7163082329998061422, 7163082334141743104,
    7163082338631417856, 7163082342949810688, 7163082351321612288, 7163082355576406016, 7163082358176874496, 7163086676498055168,
    7163086685004103680, 7163086693734875136, 7163086696093843456, 7163086749553983488, 7163086753874575360, 7163091083057262080,
    7163091091556663296, 7163091121587879936, 7163091126057269504, 7163097705762586624, 7163097731800825856, 7163101030252110592,
    7163104277197251840, 7163104324434788352, 7163104341664989184, 7163370350531575808, 7163378102669504366, 7163382453655371776,
    7163384678683340288, 7163384745349349376, 7163386877465067520, 7164208212667793408, 7164208240903847936, 7164208251262105856,
    7164208270968619008, 7164208279558553600, 7164212576371343360, 7164212649335455744, 7164212666422132736, 7164216982957457408,
    7164216991605325824, 7164216995758473216, 7164217025756135424, 7164217030175031296, 7164217036996870144, 7164223580027224064,
    7164223595411931136, 7164223648646037504, 7164223652991336448, 7164223657219194880, 7164223665976901632, 7164230171006861312,
    7164230220130549760, 7164230245974110720, 7164230249984032768, 7165052611744235520, 7165052680665038848, 7165054862415459328,
    7165055917124222976, 7165058122143563776, 7165061444747132928, 7165061453337067520, 7165064744983032832, 7165064758079520768,
    7165064783772647424, 7165065801612813568, 7165065812728872960, 7165065818893612032, 7165065831569686528, 7165065848958091264,
    7165065861608143104, 7165066905352565760, 7165066909914985472, 7165066918304574720, 7165066922749686643, 7165066952596222976,
    7165066974138230130, 7165066978584914944, 7165066987023786853, 7165068037521932288, 7165068041816899584, 7165069160210366464,
    7165069197163102208, 7165071294919081984, 7165071310287011840, 7165071348941717504, 7165071367822603264, 7165072474223149056,
    7165073575604256768, 7165074601976791040, 7165074649430259968, 7165074657885093888, 7165074666592468992, 7165074670720253952,
    7165075710246125568, 7165079051770855424, 7165897036724699136, 7165897041043062784, 7165897049760595968, 7165897077879209984,
    7165897083868676096, 7165897105393844224, 7165897109645950976, 7165897122640822272, 7165897135743827968, 7165901426214830080,
    7165901439040225280, 7165901443361144832, 7165901518875394048, 7165905832824370176, 7165905875666731008, 7165905901621084160,
    7165905905805099008, 7165912483926900736, 7165912498741182464, 7165912507069497344, 7165912515669393408, 7165919026930084864,
    7165919035563966464, 7165919052867895296, 7165919069763036416, 7165919074074492928, 7165919095626399744, 7165922998006841344,
    7165923493880622080, 7166742567961231360, 7166753629472449792, 7166757527332323328, 7166757950107775588, 7166760179197113088,
    7166760217683588096, 7166760226206084608, 7166760234856218624, 7166761274312715776, 7166761325952827392, 7166762359170531328,
    7167869599138971648, 7233172427696504832, 7233182741647654912, 7233182804337491968, 7233183849709043712, 7233183866896384000,
    7233188273683103744, 7233189367047520256, 7233191563528267122, 7233193790863835136, 7233195517440688128, 7234295492924932096,
    7234296547144695808, 7234296619975507968, 7234297646387888128, 7234297663718581618, 7234297680747626496, 7234297693717030144,
    7234297706752078949, 7234297719418876773, 7234299916741246976, 7234300962271356160, 7234300979450281984, 7234301046317645824,
    7234302117465620480, 7234307542338240512, 7234307576654295552, 7234308641671872512, 7234308676115562496, 7234309775325659136,
    7234309822705005568, 7234309842410668032, 7234311940274913280, 7234311957386625024, 7234312000420541440, 7234312021703917568,
    7234312026208141312, 7234314173724033024, 7234315247399035493, 7234315255989665792, 7234315272984592384, 7234315279839264768,
    7234315302948401664, 7234315320413878528, 7234316338169905152, 7234316355249635328, 7234318554423586816, 7234318571451777024,
    7234318597506793472, 7235421373275925760, 7235421392831774720, 7235421398996247552, 7235421420631621632, 7235423561790259200,
    7235425822644633600, 7235425825238024192, 7235426866322079744, 7235427978969181184, 7235428000260716800, 7235433459230793984,
    7235435696774840320, 7235435701303604594, 7235440056133222400, 7235440118889185280, 7235441138531984741, 7235441147256399218,
    7235441155611256064, 7235441166861205504, 7235441190105215744, 7235441198845158770, 7235441203039271168, 7235441220035437413,
    7235444454431391744, 7235444471375396864]

/-- bip39.py 515-1026. -/
def english2 : List Nat :=
  [7235444497379976448, 7235448942782054400, 7237112477944774656, 7237112482205363828, 7237116375905337344, 7237122337319944192,
    7237122356251553280, 7237123391355748352, 7237124491051335680, 7237124533750661120, 7237124551140704256, 7237125661624631296,
    7237130003836567552, 7237132191793479680, 7237133302371450880, 7237954643798523904, 7237954648016814080, 7237954673544527872,
    7237954699640005376, 7237954714866810880, 7237959020252758016, 7237959097662832640, 7237963439891546112, 7237963465527132160,
    7237963474100289536, 7237963480895062016, 7237963508359364608, 7237970077964828672, 7237976662149693440, 7237980592044769280,
    7238801287280590848, 7238812243742162944, 7238813356138692608, 7238817773217316864, 7238818918121340928, 7238819946363355136,
    7238820039107805184, 7239362069986803712, 7239939240701289216, 7305233755973615616, 7305233785820282880, 7305245880783732736,
    7305245887343624192, 7305245914858258432, 7305246967200284672, 7305247012625055744, 7305247034099892224, 7305797846475735040,
    7305805532041279744, 7305805540631607552, 7306078178991144960, 7306080442438909952, 7306093565199017216, 7306640074302816256,
    7306922170129580032, 7307485568705757184, 7307499862112731136, 7308324526192852992, 7308326682182549504, 7308327773145295203,
    7308327790006137856, 7308327815843050496, 7308327828777430644, 7308327854431039346, 7308332243947094016, 7308343172944363520,
    7308605940963147776, 7308606000858726400, 7308606013691880704, 7308609312327532544, 7308620316067982848, 7308621381321162752,
    7308621394339000832, 7308621415840743424, 7308886320622141440, 7308886325044707328, 7308889196431671296, 7308889661990204160,
    7308889675093206272, 7308890766124777472, 7308890787305553920, 7308891874115413248, 7308892913313054720, 7308892947790233600,
    7308894012942017792, 7308896272272850944, 7308898445433241600, 7308901795305619456, 7308905042233786368, 7308905068154847232,
    7308906193536483328, 7308907224322015232, 7308907241508503552, 7308907280274030592, 7308909423251910757, 7309458139733320960,
    7309752731483242496, 7309752765910089728, 7310011797803630592, 7310012293419368448, 7310027622157647872, 7310027686656568832,
    7310030968155275264, 7310034271018680320, 7310295890301091840, 7310313482631512064, 7310313499633345792, 7310314582065872896,
    7310579637281713152, 7310582896978493440, 7311146925001958245, 7311146957659963392, 7311153552129261568, 7311153556716060672,
    7311701074811813888, 7311701117701481728, 7311703282415763456, 7311703294998374245, 7311703299611492352, 7311703312513131776,
    7311703351134322688, 7311705472882730240, 7311705537004532581, 7311708762827617280, 7311708796867933184, 7311709909307883520,
    7311709939624312832, 7311709941973123072, 7311716540810985472, 7311717558802186240, 7311717575798554624, 7311717593229099008,
    7311717605829078528, 7311717619015680000, 7311717631666647808, 7311721974028566528, 7311722029638483968, 7311986520687116288,
    7311986943513818880, 7377285908143472640, 7377286950052429824, 7377287020591479040, 7377288049564057600, 7377293587723059200,
    7377293613291536384, 7377296875721850880, 7377296907481120768, 7377297945168707584, 7377297964168445952, 7377297990088851456,
    7377298610888638464, 7377299038120443904, 7377299110739802368, 7377303477086584832, 7377304556892286464, 7377305207958405120,
    7377305626382172160, 7377305656336973824, 7377305660665718016, 7377306773272657920, 7377307885642544229, 7378410717330957568,
    7378411808251540089, 7378413951389887488, 7378414615190831104, 7378415044687560704, 7378415079047299072, 7378423829714239488,
    7378424937691742208, 7378430508339192172, 7378431534811840512, 7378433742592802816, 7378434406400131072, 7379537652267089920,
    7379538816059534848, 7379540980631863296, 7379543218551324672, 7379548645470765056, 7379548679830503424, 7379548711597244416,
    7379550829126090752, 7379550840199053312, 7379550844494020608, 7379550854785925120, 7379550863610085376, 7379555242540531712,
    7379555276900270080, 7379555304616230912, 7379556335096692736, 7379556354937061376, 7379557007772090368, 7379557481920557824,
    7379561405818601472, 7380380984362926080, 7380381011827228672, 7380381037647364096, 7380381040197500928, 7380381050657177600,
    7380385373819502592, 7380389782208380928, 7380389819110653952, 7380396353702068224, 7380396362141007872, 7380396413798055936,
    7380396447947161600, 7380402984863137792, 7380403027879919616, 7380406930260361216, 7381225435062861824, 7381227670375235584,
    7381231563981193216, 7381234226860916736, 7381237491036061696, 7381237527265869824, 7381240789570945024, 7381240858290421760,
    7381244085505359872, 7381244094337777664, 7381244102692831232, 7381244118170599424, 7381244158795474176, 7381244162948988928,
    7381244171345093632, 7381245253810651136, 7381245258038902784, 7381247431268106240, 7381250255678865408, 7382069835991901440,
    7382069861687492608, 7382074277188955764, 7382074285554139136, 7382078623578324992, 7382078662115655680, 7382085227385978880,
    7382085259396907008, 7382085280871743488, 7382085297950949376, 7382085310692065280, 7382091834991837184, 7382918678674669568,
    7382928110422851584, 7382928584899297280, 7382932982549669120, 7382933028160405504, 7382935211923013632, 7449345653894021120,
    7449351179814830080, 7449354424536334336, 7449354471461779712, 7449355539206635520, 7449358403949821952, 7449361021319577600,
    7449361025514038528, 7449361034171514880, 7449361068597641216, 7449361072826250240, 7449361702484705280, 7449362183521042432,
    7449363235788029952, 7449363250374901760, 7449364345584091136, 7449369832857796608, 7450482540544093184, 7450482557775446016,
    7450482596154179584, 7450482604868173824, 7450482609113425152, 7450488102578185472, 7451328125142564864, 7451594185481650176,
    7451599706863435776, 7451600752359047168, 7451608448823853056, 7451612821116577024, 7451612866643230720, 7451617234624970752,
    7452438565515952128, 7452438610133188608, 7452438627339993088, 7452438631869841408, 7452447363303473152, 7452447402150290688,
    7452453951783305216, 7452454007752097792, 7452454020838326272, 7452454037682651136, 7452454040283119616, 7452460560043474944,
    7453283059165560832, 7453286290683032320, 7453295085073989632, 7453298383608872960, 7453298449727881216, 7453301705437634816,
    7453302834896568320, 7453302847848841216, 7453306086405046272, 7453307222651568128, 7454127406786281472, 7454127412775747584,
    7454127438696546304, 7454127460272046080, 7454127468610322432, 7454127481730105344, 7454127494454868224, 7454131802483982336,
    7454131819563188224, 7454136211469238272, 7454136217475481600, 7454136280188715008, 7454142805946038528, 7454142883432497152,
    7454142890143383552, 7454149450504601600, 7454971902113611776, 7454976304706748416, 7454980638093869056, 7454980672705265664,
    7454980706753708032, 7454985704460779520, 7456110504855994368, 7521401057742684160, 7521408791032627200, 7521412038027902976,
    7521413169306271744, 7521413195326910976, 7521414228461223936, 7521416481054130176, 7521418619787542528, 7521418626507735040,
    7521418692677074944, 7521418705519211520, 7521420396034260992, 7521423028849213440, 7521424154130644992, 7521427411635011584,
    7522525834716905472, 7522525871029616640, 7522525896792604672, 7522525914056359936, 7522529147838033767, 7522534645447262208,
    7522537965566820352, 7522537969701617664, 7522537980884418560, 7522539698871336960, 7522544573659217920, 7523655034860339200,
    7523658348873383936, 7523663863611392000, 7523666096994385920, 7523667797801435136, 7523670430616387584, 7523671596422297856,
    7525341677435748352, 7525342815274467328, 7525352679111917568, 7525352683406884864, 7525352702270863616, 7525352715341725696,
    7525353782918512640, 7525354884460183552, 7525355977646800896, 7525357081453395968, 7525359319131357184, 7525359338180968448,
    7525359342300692480, 7525360429002154348, 7525360444412788736, 7525361481311846400, 7525362634846109696, 7525363680435765248,
    7527030104359174144, 7527036035709009920, 7527042617444401152, 7527042621712433152, 7527042677641052160, 7527043729914684416,
    7527043742800871424, 7527043796714913792, 7527048127860506624, 7527048188201533440, 7527048194761424896, 7527049218598265856,
    7528156495660449792, 7594024447351193600, 7594035914913873920, 7594306338939731968, 7594306396727371385, 7594314052700995584,
    7595160721523277824, 7596565418722983936, 7596565854249118720, 7596565892871451392, 7596835243147919360, 7596844095016035584,
    7596848428856075520, 7596848497574608896, 7596851710026579968, 7596851770423574528, 7596851783242507520, 7596851796076881152,
    7597118919748354048, 7597118938897736960, 7597118951648460800, 7597118964398912357, 7597120008388345856, 7597120025222280293,
    7597120051194494976, 7597120077031567993, 7597122190071562240, 7597122237231232000, 7597122250267754496, 7597124389060280320,
    7597124406341104640, 7597125570125720576, 7597126605113393152, 7597126674084855808, 7597129886752636928, 7597131003403960320,
    7597131046108622452, 7597133271180247040, 7597134370514827520, 7597136483721740288, 7597136500718043136, 7597136517913706496,
    7597136548063241472, 7597136565108501504, 7597137583049801728, 7597137600480375668, 7597137641510797312, 7597139799521361920,
    7597139816717025280, 7597139842353751296, 7598258039564533760, 7598536162023833600, 7598539507586327808, 7598543944347025408,
    7598809990106710016, 7599383958681288704, 7665517353676046336, 7665521794604990464, 7665533385086861312, 7665542705165893632,
    7666641059022467840, 7666641067671814144, 7666653153810448384, 7666665218155479040, 7669456442574766080, 7669464611602563072,
    7669466771971112960, 7669477824774109440, 7669481731342204928, 7671147935534415872, 7671153415912685568, 7671157868099272704,
    7671158930774753280, 7671158939415871488, 7671158946136064000, 7671164482348908544, 7737587025094799215, 7738703057826873344,
    7738703066416807936, 7738719505009176576, 7738724575613026304, 7739826745825558528, 7739827385775685632, 7739827859924516864,
    7739838810388692992, 7739838824958618880, 7739844372371341312, 7739844977961730048, 7739845404914970112, 7739845411753426944,
    7739845477879644160, 7739848727468179456, 7741236293962563584, 7741240697998540800, 7741247282284068864, 7741247366388252672,
    7809630980976672768, 7809631416580308992, 7809631459630645248, 7809633611198627840, 7809633699690971136, 7809641310373019648,
    7809643556640915456, 7809644619467155301, 7809646874225278976, 7809649017238847488, 7809651207890272256, 7809651225003032576,
    7809652315824062464, 7809652345829226752, 7809653387821056000, 7809654070720856064, 7809654543167258624, 7809654566611940352,
    7809656705448411136, 7809657888946782208, 7810756212570587136, 7810756219458551808, 7810756272843653120, 7810756289872527360,
    7810758480581780736, 7810761777146232832, 7810762378441654272, 7810762796865421312, 7810762814085398528, 7810765073356580096,
    7810769454098284544, 7810770504519778304]

/-- bip39.py 1027-1538. -/
def english3 : List Nat :=
  [7810770519357652992, 7810770568944287744, 7810771657205900288, 7810776068371906560, 7810777172010991616, 7810779306719707136,
    7811882170905001984, 7811883216502290688, 7811883272051521792, 7811884315946738944, 7811887612628566016, 7811887677053075456,
    7811888726971252736, 7811893110186704896, 7811895296325058560, 7811895328335986688, 7811896434491392000, 7811897546887921664,
    7811899777744109568, 7811901970704236544, 7811903072034422784, 7811905204814610432, 7811909587600408576, 7813570960635723776,
    7813571003585396736, 7813572126524666368, 7813573148586016768, 7813573189723750400, 7813577580841271296, 7813585260401721344,
    7813585267171786752, 7813586405338120192, 7813591921778129152, 7813592950868279296, 7813592995552624640, 7813594054674874368,
    7813597337841827840, 7815262041614057472, 7815266422084822272, 7815272997747556352, 7815274093174849536, 7815274101597011968,
    7815285174198403072, 7816404425243820032, 7881690122971669760, 7881690774037856256, 7881694525205250048, 7881694546721243136,
    7881696701092724736, 7881696735452463104, 7881696744042397696, 7881697849761595392, 7881698904410947584, 7881701139428409344,
    7881701769154134016, 7881702187500634112, 7881702200285881600, 7881702213398036480, 7881702264844283392, 7881702273299775488,
    7881704433728356352, 7881706589925998592, 7881706594147237888, 7881706611351093248, 7881706620024324096, 7881706628464246784,
    7881706658594908005, 7881707726273773568, 7881707760633511936, 7881707766630449152, 7881708793170493440, 7881708801935106412,
    7881708812900499456, 7881708857619644416, 7881708866142076928, 7881713217078390016, 7881715397085364224, 7882813806776614912,
    7882813847856218112, 7882813871301485824, 7882813873626021888, 7882816022744295779, 7882817092368465920, 7882817126543654912,
    7882825948464742400, 7882825968253927424, 7882826992158113792, 7882827048211251200, 7882828169046093312, 7882828171572150272,
    7882832494339293184, 7882832511183618048, 7882832520025210880, 7882832558763802624, 7882833613295714304, 7882833662174520576,
    7882834684554510336, 7882834714676166656, 7883943005166829568, 7883943048066328692, 7883951829506064384, 7883951835569942016,
    7883952922088701952, 7883953998464548864, 7883954021775797504, 7883954047621791744, 7883954073431769088, 7883958385294206208,
    7883958458510344192, 7883959502238187520, 7883959560447197184, 7883959566376592640, 7883964564084097024, 7883964999553515520,
    7883965064270734592, 7885629677478674432, 7885631859315441664, 7885631876402577408, 7885641319316455424, 7885641754961248256,
    7885642871753110016, 7885642880092012544, 7885642914702127616, 7885642918789120000, 7885643990786113536, 7885647235298361344,
    7885647250666291200, 7885647291089839872, 7885648403687371887, 7885649464276418560, 7885649468738895872, 7885649494551822336,
    7885650589808421230, 7885650611025215488, 7885651648712802304, 7885651667587170304, 7887319620737040384, 7887322912450805760,
    7887329503456788480, 7887329569650273401, 7887337193266806784, 7887337202008260608, 7887337214842990445, 7887337218878996480,
    7887337264462692352, 7887338369903755264, 7888463101763649536, 7888463166071535872, 7888464212341555200, 7953754374134562816,
    7953758697472131072, 7953762023545634816, 7953764252734914560, 7953765360996450304, 7953766413102874624, 7953766464692224000,
    7954871459074015232, 7954873628032499712, 7954875796990984192, 7954877985082406501, 7954878032074994688, 7954880265508450816,
    7954887910501056512, 7954890169646055424, 7954891258873249792, 7954891860168671232, 7954892373139548928, 7954893459815492608,
    7954894494896226304, 7954895652624793600, 7954896756431388672, 7955999502169538560, 7956003915047108608, 7957687284277444608,
    7957695010923610112, 7957699366178088192, 7957701543692926976, 7957704880698425344, 7957704910873559040, 7957705944215846912,
    7957707028198876416, 7957707043727474688, 7957707058381219584, 7957707062574907392, 7957709244562669568, 7957709908470661120,
    7959377233655722496, 7959388185823412224, 7959393756388524032, 7959395459796041728, 8025813658695106560, 8026089056293093376,
    8026094469620432896, 8026096685889683456, 8026104356937032960, 8026104365476898048, 8026105447657111552, 8026107681141256960,
    8026368316979281920, 8026370430036082688, 8026386982645363200, 8026662971298021376, 8027215536020520960, 8027215971724820480,
    8027215988659650560, 8027231364820500480, 8028066558020419584, 8028617933036978176, 8028902186857529344, 8028908192916307968,
    8028925746639102720, 8029189657608585216, 8029464471091019776, 8029466236322578432, 8029471112955953152, 8029474385727651840,
    8029474452595015680, 8030029658722402304, 8030029677529661440, 8030034058537823744, 8030041759581274112, 8030046131791462400,
    8030588212363984896, 8030589290612260864, 8030590385517650944, 8030591472422092800, 8030591489541239417, 8030594753709998080,
    8030596969920724992, 8030596978426405228, 8030604679168524288, 8030890595274942464, 8031158820422025216, 8031453485200273920,
    8031453489538269184, 8031453536840843264, 8031453549523395840, 8031714101946220544, 8031718508582666240, 8031718525762535424,
    8032009406717624320, 8032009842421923840, 8032303420405579776, 8032578354147360768, 8032855405300285440, 8097862954856218624,
    8097863987466928128, 8097867288478220288, 8097869543336050688, 8097872770524053504, 8097872820396097536, 8097874982392037376,
    8097874986871554048, 8097875003900428288, 8097875051235602944, 8097877185995472896, 8097879367610597376, 8097879384959221760,
    8097879408875929600, 8097879440810573824, 8097879449560678400, 8097880542747295744, 8097881575284277248, 8097881595014283264,
    8097881601010988032, 8097881639833305088, 8097881648255888896, 8097882743465050112, 8097883781152636928, 8097887115748996096,
    8098986584419860480, 8098986631940538368, 8098986647149871104, 8098986653079467008, 8098998704790400512, 8099000451174760448,
    8099000869606160640, 8099000878145208320, 8099002033541283840, 8099003132936323072, 8099005289008952320, 8099005319141916672,
    8099005345011990528, 8099007048244527104, 8099846449757421568, 8099846475694997504, 8099849692699230208, 8099857466422157676,
    8100112531739115520, 8100114730668195840, 8100114756640335104, 8100116882373214208, 8100118654500208640, 8100119090161385472,
    8100124615914815488, 8100124630745874432, 8100126810643103744, 8100127924740780544, 8100128983896555520, 8100132348725297152,
    8100133375097962496, 8100140070834536448, 8100956909256835072, 8100956956509077504, 8100956978234876672, 8100956982271279104,
    8100957002051616768, 8100961298954911744, 8100961311638487040, 8100978899590053888, 8100978914974760960, 8100978946774204416,
    8101805773488652288, 8101805803553423360, 8101810177776287744, 8101813420443041792, 8101813435710308352, 8101813454557741056,
    8101815630438596608, 8101815720632909824, 8101816764309962752, 8101817904294621696, 8101820098973494784, 8101821151424638830,
    8101821194189302885, 8101821196716212224, 8101822216576892928, 8101822297929840896, 8101824432746821888, 8101825527745216512,
    8101825532250816512, 8102645759375663973, 8102645785128402944, 8102650161532204032, 8102650170055983104, 8102650212938573056,
    8102650225890325504, 8102650230437642240, 8102650238775227392, 8102654555210121216, 8102654559505088512, 8102654598100187392,
    8102654602706419712, 8102654606974743673, 8102654624104579072, 8102654636755019008, 8102654653994369024, 8102661148109008128,
    8102661152287453952, 8102661156849804544, 8102661165239500800, 8102661169684245760, 8102661182351176704, 8102661195404961024,
    8102661203836272640, 8102661208121963641, 8102661221190562304, 8102661225300849664, 8102661229572521984, 8102661233957954816,
    8103491322287161344, 8103493486951425792, 8103502315635343360, 8103502332815212544, 8103502347394613248, 8103503434128911872,
    8103504477748723712, 8103506702608891904, 8103506732891766784, 8103508875801621349, 8103508901774295040, 8103508931754812672,
    8103508944464379904, 8103509995036868608, 8103510647871897600, 8103517770746232832, 8104634767202935808, 8175547816814606592,
    8175547825589153024, 8175547842767974912, 8175552245109714798, 8175556574278844416, 8175556645498126336, 8175556671267930112,
    8175563244262391808, 8241976967880245248, 8241978071787204096, 8241978078507565056, 8241978104277368832, 8241979162751926272,
    8241979197061332992, 8241984705642102784, 8241984714232037376, 8241984737401372672, 8241988006207029248, 8241989120868483072,
    8241990166290366464, 8241990170709917696, 8241990183419904000, 8241992391016316928, 8241994571181981696, 8241996770205237248,
    8241996784792109056, 8241998971073986560, 8241999634948423680, 8242003412137279488, 8243101777126227968, 8243101809455923200,
    8243101841390174208, 8243102880714719232, 8243102949390967808, 8243103963053555712, 8243103980183774464, 8243103997479944192,
    8243104023283236864, 8243104065981801728, 8243105148313075712, 8243107308715078656, 8243107321818710016, 8243107347604766720,
    8243108395510267904, 8243108433997594624, 8243108446998721024, 8243111676664348672, 8243113858852454400, 8243113875654010112,
    8243113892900110336, 8243113959918403584, 8243114958119632896, 8243114975365850482, 8243114992562601984, 8243115018466689024,
    8243116070449315840, 8243116075038801920, 8243116137466822656, 8243117221500289024, 8243118256654778368, 8243118273700560896,
    8243118303764243712, 8243118316935446528, 8243119442065777920, 8243121563980070912, 8243121572435618917, 8243121589717303296,
    8243121615520555877, 8243121619714601829, 8243121641139470336, 8243122689211170816, 8243122727647540224, 8243122740751368192,
    8243123810047323648, 8243124870769803264, 8243124888017502208, 8243125953386250240, 8243972658776834048, 8244228345017925632,
    8244228767794200576, 8244229878321250304, 8244229891206152192, 8244230977832878080, 8244230988117311488, 8244233208615403520,
    8244234291198820352, 8244234295225352192, 8244241981539090432, 8244243136885293056, 8244244221035610112, 8244247496277098496,
    8244248640372867072, 8244250753674248192, 8244250770954780672, 8245916524863291392, 8245916591233957888, 8245917673565716480,
    8245917699326345216, 8245918755653419008, 8245929707969930496, 8245931926616014848, 8245931949859078144, 8245931956680785920,
    8245936320367558656, 8245937404652093440, 8245938529725579264, 8245938559723241472, 8245938585509822464, 8245942902069395456,
    8247606467347218432, 8247608677553405952, 8247611542296592384, 8247617473646428160, 8247619238877986816, 8247619751614414848,
    8247624055348264960, 8314036338265423872, 8314036769580711936, 8314036812413891328, 8314038971080376320, 8314042299680030720,
    8314045552647995392, 8314045604379361280, 8314045612945309696, 8314045632574652416, 8314045638822395904, 8314046667661770752,
    8314046716724969472, 8314047762878431232, 8314054383359129856, 8314054409129060608, 8314055456859357184, 8314055525518501120,
    8314056563266420736, 8314059428009607168]

/-- bip39.py 1539-2050. -/
def english4 : List Nat :=
  [8314596455234928640, 8314596462130364416, 8314596481004732416, 8314596489852973568, 8314600861871374336, 8314604121892388864,
    8314604164876075008, 8314605221420688640, 8314605281634906739, 8314611874358980462, 8314611887304081408, 8314615099872509952,
    8314615116875038720, 8314615134239850496, 8314615185536974848, 8315158939637383168, 8315159430931415040, 8315159435428102144,
    8315159437853589504, 8315161617254055936, 8315161629989011456, 8315161638645755392, 8315161643091326073, 8315163767180623872,
    8315163797245394944, 8315166006560322560, 8315171469725532160, 8315171498121756672, 8315172586600362496, 8315173686129852416,
    8315173728904282112, 8315173733206483813, 8315178084008656896, 8315178139909317888, 8315179226536832512, 8315180330393075712,
    8315180334748532736, 8315182465018757120, 8316003795934314496, 8316003804600336384, 8316003830243227392, 8316003855888285696,
    8316008192110755840, 8316008228282433536, 8316008254008616448, 8316012596270727168, 8316012600693358592, 8316012634801438720,
    8316012641696874496, 8316012669168648192, 8316019184727228416, 8316019191522000896, 8316019236417830912, 8316019238766641152,
    8316019249302732800, 8316019262059996530, 8316019266230943744, 8316022509072809984, 8316022560504414208, 8316025794605114624,
    8316029752846581760, 8316286404681164544, 8316287498128982016, 8316288571870806016, 8316289681666867200, 8316291885236748288,
    8316291909060395008, 8316297369816924160, 8316297393733632000, 8316297400058642432, 8316297442680242176, 8316298486473650688,
    8316298516538654720, 8316299560091648000, 8316299575577018368, 8316303966879088640, 8316305130671702016, 8316306234411345152,
    8316310128311664640, 8316312761126617088, 8316848289408352256, 8316852687428124672, 8316856585590669312, 8316857051259076608,
    8316857058037071872, 8316857077163098112, 8316870245398609920, 8317129685381152768, 8317129732625793024, 8317134098191613952,
    8317134136651641344, 8317138487463641088, 8317138491758608384, 8317138504701444096, 8317138528718815232, 8317145101653377024,
    8317145155853352960, 8317145168738254848, 8317151750372982784, 8317411205119475712, 8317411231023497216, 8317420001095057408,
    8317426593869856768, 8317426611308199936, 8317692641424703488, 8317692675683778560, 8317692695464116224, 8317701450318741504,
    8317708118691676160, 8317974170440826880, 8317976315331477504, 8317976341033779200, 8317976347989245952, 8317977404551200768,
    8317979685178834944, 8317986202556825600, 8317986215297380864, 8317986236681682944, 8317986288496635758, 8317986292533035008,
    8317987319205225728, 8317988425437282304, 8317989555013681152, 8317992872758476800, 8317992879318368256, 8317996143493513216,
    8317996153761169408, 8317996160673382400, 8317996170930880512, 8317996179598082048, 8318255591277461504, 8318255655701970944,
    8318255664365399040, 8318255677327802368, 8318259980834701312, 8318259989397466112, 8318259997897129984, 8318260028096118784,
    8318260036551835648, 8318263296673513472, 8318264387370483712, 8318264391672922112, 8318264421730222080, 8318264432920625152,
    8318264451869704192, 8318267711926829056, 8318271010327494656, 8318271031927075328, 8318271036130852864, 8318271049116418048,
    8318271055760195584, 8318274274720743424, 8318274291504513024, 8318274308902682624, 8318281552660267008, 8318559048121516032,
    8318559065084683520, 8318559082482132332, 8319381487013396480, 8319381495554075904, 8319381504085983232, 8319381508364173312,
    8319381517179748352, 8319381534318526464, 8319381538412167168, 8319381555860471808, 8319381564198748160, 8319381583979085824,
    8319385880741543936, 8319385897938190336, 8319385930485989376, 8319385943370891264, 8319385953662599168, 8319390287377989632,
    8319390326049472512, 8319390334555521024, 8319396884447756288, 8319396927236171776, 8319396931591733248, 8319396936004141056,
    8319396949107146752, 8319396965951471616, 8319400174550345593, 8319400191479513088, 8319400208759062528, 8319400234579329024,
    8319400260231720037, 8319403485719065600, 8319403494318538752, 8319403524323304704, 8319407918118076416, 8319664095743931392,
    8319664108697026560, 8319664151512809472, 8319665165191836416, 8319665184964608000, 8319666268998074368, 8319668476611526656,
    8319669554858950656, 8319669580418216960, 8319671833573982208, 8319676203257692160, 8319676832915914752, 8319677307392360448,
    8319677328539254784, 8319679467643469824, 8319679514795376640, 8319679523267110144, 8319681664754122752, 8319681670682993920,
    8319681675038556160, 8319681713918276453, 8319681722458664548, 8319681739470995456, 8319682813211407360, 8319682830324559360,
    8320225954893887232, 8320225959248658432, 8320225970254512128, 8320225980673163264, 8320230305789116416, 8320230323002540032,
    8320234725344018432, 8320234753462632448, 8320234759485652992, 8320234785195163648, 8320241373684957184, 8320802056087273472,
    8320802116300926208, 8320807635259490304, 8320808730298744832, 8386092198831063040, 8386093294171783168, 8386097230838235136,
    8386099893717958656, 8386103164041166848, 8386103187957874688, 8386105386981130240, 8386107560234582016, 8386109769549873152,
    8386110884539269120, 8386110924888473600, 8386112024575148032, 8386116373507473408, 8387216960621903872, 8387217001826746368,
    8387229092159684608, 8387230827326472192, 8387231245791395840, 8387231301542019072, 8387231325542678528, 8387235693524418560,
    8387236823100817408, 8387242320658956288, 8388061432847007744, 8388061456821649408, 8388065826497888256, 8388065829098356736,
    8388065835313856512, 8388065847972724736, 8388065876342996992, 8388070228872921088, 8388070248619704320, 8388076856014304256,
    8388080085789310976, 8388080103261011968, 8388080129040973824, 8388083418633601024, 8388083422968771072, 8388345093869010944,
    8388346165908733952, 8388349466356219904, 8388355026426265600, 8388356050330451968, 8388356061513383936, 8388357246924357632,
    8388358926256570368, 8388361560749244416, 8388362720682246144, 8388363789854048256, 8390031779309813760, 8390032801233334016,
    8390035000619171840, 8390035013292618240, 8390035681488928768, 8390038316256879986, 8390040545094008832, 8390042714195886080,
    8390044896147210240, 8390044956243423095, 8390046010885275648, 8390046021444763648, 8390046029800043520, 8390047140461674496,
    8390047176566243328, 8390047776116834304, 8390048228749344768, 8390048258971729920, 8390050402086682624, 8390050449220464384,
    8390050475225477989, 8390051568572956672, 8390052592587112448, 8390053765070418944, 8390055891229212672, 8390055908402528256,
    8390055945144631296, 8390057671721484288, 8390876135369474048, 8390876139563778048, 8390876148177396480, 8390876152522276864,
    8390876161189609472, 8390876182755042674, 8390876189408886784, 8390876204038619136, 8390876216880267264, 8390876228063592448,
    8390880524977045504, 8390880540210757632, 8390880580543184896, 8390884922889338880, 8390884927066865664, 8390884931462496256,
    8390884948581904896, 8390884972617007104, 8390884985501908992, 8390891584324435968, 8390891605697783040, 8390898125602029568,
    8390898132396802048, 8390898164491616256, 8390898168642237440, 8390898194472501248, 8390898198566141952, 8390902096651616256,
    8391721666606006272, 8391729429380820480, 8391733750167568384, 8391734843565670400, 8391734901101821952, 8391739286264283136,
    8391739297446756352, 8391739325035118592, 8392287947145412608, 8392287955703103488, 8392292306245386240, 8392292351795527680,
    8392292375216521216, 8392298476418891776, 8392862959675637760, 8392862978522835968, 8459849691985608704, 8461527518366428257,
    8461807825228988416, 8461807915239630080, 8461810067077857280, 8461810080254620160, 8461811136742817792, 8461811177779888128,
    8461813318442680320, 8461813378621636608, 8461815517583276288, 8461816638553091328, 8461816685897515008, 8461816696812863488,
    8461816707104797541, 8461818871936413184, 8461819975540867072, 8461828746008068096, 8461829888626748416, 8461830927808200704,
    8462374069556543488, 8462377440787064064, 8462378527598313472, 8462386218066247680, 8462387280835772416, 8462390579404210176,
    8462934820379426816, 8462940333271941120, 8463215221463318528, 8463219175433699328, 8463219604930428928, 8463219615490375680,
    8463219640992232192, 8463237186043510784, 8463505514082629888, 8530208439332503552, 8530208525348831232, 8530212923119763456,
    8530218369121517568, 8530218382031126528, 8530218424972869632, 8530220115495485440, 8530220568403247104, 8530222793172713472,
    8530224966383530752, 8530226111269830656, 8530228277879504896, 8531339870972175616, 8531344324887314432, 8531346446768799744,
    8531346515588965632, 8531346519608000512, 8531350834355634176, 8531350866139611136, 8531350909138988544, 8531350933139881984,
    8531352008583282688, 8531353048182779392, 8532458044383363072, 8532459212430537728, 8532460273522799360, 8532460320767244544,
    8532461355846860800, 8532462530805628928, 8532470181776549120, 8532472415159543040, 8532473480446083072, 8532476813541207040,
    8532476817796235264, 8532477829479137280, 8532477865785032704, 8532477917012951040, 8532478930802704384, 8532481164051480576,
    8534149088965296128, 8534155694507556864, 8534155697108025344, 8534158992982568704, 8534159070492688384, 8534167796030898176,
    8534173278143840256, 8602270446743715840, 8602270491538882560, 8602272710191480832, 8602275970071658496, 8602275974366625792,
    8602275984927096832, 8602278207749619712, 8602282547301475584, 8602282575731359744, 8602282598975107584, 8602283653768151040,
    8602283688127889408, 8602283707002257408, 8602284742307479552, 8602286939418132480, 8602289804161318912, 8603389781598535680,
    8603389798694912000, 8603389805415366656, 8603389811411910656, 8603389815756780032, 8603390415300722688, 8603393045589550848,
    8603394175098840064, 8603398603186110464, 8603401837488203008, 8603409605214601216, 8603410206510022656, 8604234206270193664,
    8604234238935433216, 8604238557323722752, 8604238574369374208, 8604238611212140544, 8604238630086508544, 8604243017848586240,
    8604243032619184640, 8604518948022517760, 8604519014191857664, 8604521147045773312, 8604527739820572672, 8604527774180311040,
    8604529509347098624, 8604529940713897984, 8604529943138795520, 8604529951728730112, 8604529968908599296, 8604529983495471104,
    8604530009265274880, 8604534341185306624, 8604535438271381504, 8604535440696934400, 8604535453581836288, 8604536580565332736,
    8606216598270771200, 8606217678153056256, 8606218790406062080, 8606219888215719936, 8606219922575458304, 8606223186750603264,
    8606223216815374336, 8606223222788063232, 8606223248910188544, 8606223257214910464, 8607048971522670592, 8607053315529768960,
    8607053384407344384, 8607057782446751744, 8607057786490060800, 8607064357823578112, 8746397725152509952, 8747504993491222528,
    8747517064219394048, 8750341243864612864, 8750341718039068672, 8750341743825649664, 8819563688668168192, 8819581266341920768,
    8822391575112843264, 8822392240832774144]

/-- bip39.py 2-2051 `english_words`. -/
def english : List Nat := english1 ++ (english2 ++ (english3 ++ english4))

end Verif.Seed
