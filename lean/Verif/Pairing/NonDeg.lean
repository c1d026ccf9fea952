import Verif.Pairing.Model
import Verif.Pairing.Eval


/-!
The pairing of the documented base points, evaluated in the kernel.  The evaluation is cut into pieces at literal
intermediate states (values of the `Fp` buffers), so that each piece needs little memory.
-/

namespace Verif.Pairing
open Fp Miller

namespace NonDeg

/-- a buffer with the given content -/
def m (n : ℕ) : Fe := ⟨n % p, Nat.mod_lt _ p_pos⟩

def Q : F2 × F2 := (g2.x, g2.y)
def P : Fe × Fe := (g1.x, g1.y)

def st0 : F12 × J F2 :=
  (⟨⟨⟨m 13026574444783818691513651841571400122451832439954160853363655074204151638889, m 8173750806720662396093488896599334123632986754442115812230805927434266454024⟩, ⟨m 1719003062411142268729472769592120893197684934923983862049771620093347686036, m 15344808989477315357871146930418435214419899247557120954499669538640075142574⟩,
    ⟨m 1498438270716810849447378130361294834845721925525601666972718276727110313474, m 11083765839418134368288171404348617730870892125066908937092988377005678815650⟩⟩,
   ⟨⟨m 7194512762635968618552102905321875483874986588306644586124255354677840107391, m 3096242302018125705446882056867142679160857576610543579698032627395933911072⟩, ⟨m 2289716361745346781906040427991244889251032019641117895737135679603870307118, m 9760676269026710710277260212617186155081637835809380661737504420885508347783⟩,
    ⟨m 0, m 0⟩⟩⟩,
   ⟨⟨m 9059401314741094269671328865417667138061073215865177239100522415625372747367, m 12758894266667189626501339117047273561240442518665573753405996926989063983825⟩, ⟨m 9395429586832956348572801156226296459566321351565680129427597986026420296140, m 2571106533010443304485341209466455359342571902189187935386706069393125662351⟩, ⟨m 9545756104980199203306516581004521755537263487484547254843995299494577238481, m 4739588325712983071974597356652676789854212933943652410652211573346195370134⟩⟩)
def st1 : F12 × J F2 :=
  (⟨⟨⟨m 1822218526107757329236225604098603328390768652204202845279801659763121993131, m 10710340961093991723999327763387823935968086981252724723371841853945248786704⟩, ⟨m 5193848964275537501123579504223997622162260236203139462564299450886687534619, m 10800422729701000065897694064194964802885650359345151146836542409916924818698⟩,
    ⟨m 14032181431164282921017312356653924112787698199593380258899768741233553685569, m 8077685374207553968797548442436407235907970321619109583116964417173654795665⟩⟩,
   ⟨⟨m 5838860421563726480458928804152679687910461184264788146473608345942050282402, m 8232039103018325076248091564928847116305829801797724743623360231945424748810⟩, ⟨m 8793942425471304492959091353757724196638668127892174949478693560336585296351, m 8100049654436258322342407228752048025998229580478339277946941219197104190725⟩,
    ⟨m 14393582591165607256763584592278606722873707629109466622633222445547020797532, m 2534809876563181348563055854840101407468169221146529384354757832569184402825⟩⟩⟩,
   ⟨⟨m 13980355607407029956301852379824010764670509747094150984161197077724664974243, m 11674061931299000132862982535098947519821348096455845547189396255322459049097⟩, ⟨m 8454242854170687123101208505874126070303416563776838547851802318324290840556, m 14389170304478948244570620543420180691046953759410492311951642546367717834214⟩, ⟨m 5179935283427309403707166642446489682611985512604089579069758970224857705841, m 14393541125019995938676602891037901304098538300389635963815446197494260699139⟩⟩)
def st2 : F12 × J F2 :=
  (⟨⟨⟨m 5834693505136942457914201443113869809241778188038153667184301971720119835869, m 16098520133257399455179795608314825817698552428530378034692381800164770859380⟩, ⟨m 7869051907700520667905668227340487568859139260094197205498546163288929510515, m 9418992072712100276007028060251687394681014701351555774943017216275850139053⟩,
    ⟨m 8744947867716335255184902004563453911059204566780043796020220698450604256424, m 6529416965925882717467548182528709877156273344765548694528551507525140526418⟩⟩,
   ⟨⟨m 3068890597925065625791503012661472295350300821011805037854745371784510692528, m 9022234642396109418952134626654151638832633100844649352784371135009353776752⟩, ⟨m 3144598878152993441665676492423013299552093386878582781766058684800438468448, m 11566418080189075419990594091546746065553034468332341501931672502461479454023⟩,
    ⟨m 11907961698366680729609832796284220721193556031962305965567969186171088604170, m 11910245321514368170884109813033682609395355052180451196946289803775664324673⟩⟩⟩,
   ⟨⟨m 16490569993432780179211415326845684257891623154926069884986725158933925639932, m 12150647127860293058088946593562661188718748816361887440105650951468456129524⟩, ⟨m 938347205588839333070125491645666212561369617715242349925329982268652817255, m 16702796822778478164180163311986511460922445654621352835882475688837218260597⟩, ⟨m 11740063858355088885979013042811200824799180965350174605060418056724263627021, m 15606124571279631449143697490740307677475778668134859831853674244143583903478⟩⟩)
def st3 : F12 × J F2 :=
  (⟨⟨⟨m 9345690695676348671150679547459435589148933064946788827348427394897681349746, m 7177931991160409029397947597471406393270403892216038265006077331978757293120⟩, ⟨m 10414564304471043044492182051778790974033283223010304403188721298654255747, m 5118991326729350016672735846162064969467265918994869628826696100742541726580⟩,
    ⟨m 14022063025057434991611629226561256542545972585899330929943131680745858472679, m 1764619862896189778560999466300063221388727240770671328840188898416802970246⟩⟩,
   ⟨⟨m 11516358637260173322933244781174600931421336047687687070606454943871167217236, m 12134394752292374164662205977324649501142242168414725553294414548972818722858⟩, ⟨m 12351142920583174772013963424260479986960622111872053898969092170991137747337, m 10570606380155641966553454452734043873625384225074777518072371381592429575019⟩,
    ⟨m 14302518783718638691687787230358810982429319922119759197613301537607023969719, m 616468830462742386049749419406798853556663902434860283193635342946978162960⟩⟩⟩,
   ⟨⟨m 818206591765721090818762116212204260030122427450289032194538635691711446206, m 6367843248009776608501313542095200500761645692941505324123880825350082573367⟩, ⟨m 13300275436942013312879896600534934859537140261533459210857538988849015574021, m 15257347597603716952985855959316198520358589455905818469759592593146044437710⟩, ⟨m 799664504353591723974808082397517625027003902851780444353890956391348490319, m 1159437844666403214333887932289512710990704900728344807769984885675646637051⟩⟩)
def st4 : F12 × J F2 :=
  (⟨⟨⟨m 2835798149849605349006783851599364966221858717260221937813038722195706130960, m 14678598278261836528540126809512417204285092727181758397614524214328782608434⟩, ⟨m 462207797783112031804481843624584637264573339689266121974044086174056041418, m 16018031620981890691525517910384829620620335638965988082877822508304658698380⟩,
    ⟨m 6350503665883860733172349102172141877499114829473292223529119003125150430055, m 7753038106800645482958416085603032948868559776076641598520714542163154554799⟩⟩,
   ⟨⟨m 11330623617058225868917630923000166181292227058650247740707514096799597076779, m 4749554382450660320704001039003633556260097670613207723439767026046290670529⟩, ⟨m 590929053908526613900654590026179403653027115338516039097442130847632110239, m 11574137303070909714396625502517701957687371943106362660768084934735392111349⟩,
    ⟨m 7851845893267820346710606516596484472657822089844911042000798105386249398350, m 10381040827851711010538496925155760567081424207692025080086600961991869337994⟩⟩⟩,
   ⟨⟨m 5603621397226539099791220656980530183711784510246015859375734441493845852839, m 6177500038340910812886412792150958327862901988358496951252599939149404067983⟩, ⟨m 2208048077300822688840485052816791103273723107367070508741714169549127337696, m 5607925789871633967894236113150397164300740437720632169060702497972302445719⟩, ⟨m 12849576328747501520530946066292618570433260033303310606164063103102292415502, m 10749623568169540414423908735260631442957632776202085704493760522304851244904⟩⟩)
def st5 : F12 × J F2 :=
  (⟨⟨⟨m 7302819242270409769155027183230056948266986296584168109272600503870365190838, m 1300984644017133303512286254758914949639347270860892468385051635118994329553⟩, ⟨m 13911200000654067194179993028628870303495269240083509938765989990901536659979, m 12681006193285474888408512961250057471298601677756139019180915763345298047082⟩,
    ⟨m 1152888953295114470891399146367040830151471144362698823378620713239048740976, m 9761569487021163158338751479107152648304830738192020173601174620247108810361⟩⟩,
   ⟨⟨m 14700490256458932574083618356119410316645668054975411329079294835665359788805, m 13996803171723667049782121176529744753290515077561638534064715705062130888872⟩, ⟨m 3552816888617367044405342396127034445388573389131270401315133692016144101792, m 846026877668707354859407361725881333440729120766456117240312134490869671343⟩,
    ⟨m 1160302246067714021447246972963057028774785696233217843212847109041335496337, m 4484790020593387370206443765124781057293328712089216228983195584388616241714⟩⟩⟩,
   ⟨⟨m 14409881302299029461395724997973150462197928460118432207872462283942443266589, m 12366134763008171226572201469561293472061042739248670181987168113264736689850⟩, ⟨m 5118610907821123701405273310993214253075999290110607395610694722969122779592, m 2242139223142385905966005704349764350649271525388383083703766321816704817997⟩, ⟨m 11955444866045442665350474722621459537367055141387027511509081985605907734139, m 7621344700125693687764745590029428979666807600052489010554858579918038896782⟩⟩)
def st6 : F12 × J F2 :=
  (⟨⟨⟨m 9665364801619037933795477706723766700048629722833632936074702052816487549953, m 12678861299172324894277219301679178527501363751660719843329028788432074476808⟩, ⟨m 1715345836894194346353250657816641317507126827118979855012275854382432217111, m 14134666197215257757390873421152158235167026843843027973536642900390352083631⟩,
    ⟨m 15261031412516661632801553295849441219833933393640720850689020783491273482729, m 4671445105628679896407284597894090174930431016509320234443052817968082613387⟩⟩,
   ⟨⟨m 3657610739983825716968681132992407943170175372466899161289678057073021529519, m 13100810701900821128800532629487016467790681453063084962087604495281776390641⟩, ⟨m 7448681596650049351914387576246603727134215499420117254226324853941180109647, m 4947699227000250753167725994374716753439343269879324298045468522241388559692⟩,
    ⟨m 2526555784499095517044887974190978642661814809836193984388093044402123362385, m 16354284835572730868608935850273757943699170766741536711216403364289763271090⟩⟩⟩,
   ⟨⟨m 8001863004455701121800978667024523747841899264730935044854515323201150789382, m 4629075502260397245016948722665747920712558749753168380529701055630622521107⟩, ⟨m 15471038501886540983306344469279410527013397949671754063626715718572340014862, m 2733260984252525778384776525923937340043565763865050059838867906320072338408⟩, ⟨m 2199619367509968868174876257243113838134460095841189309622020871099543707563, m 15868158435704945179800786092922600626677805926369126986601368768038674979650⟩⟩)
def st7 : F12 × J F2 :=
  (⟨⟨⟨m 996041929962165627277340397730775986411917583207254600672558306081662287850, m 6949669994848428530832263140530465864554906586861611631262209984831750855999⟩, ⟨m 10991177365551718120191533020804045488812581829074506376531744604646304740843, m 14508733515103364002835253805428622312665974557923204383268803319128744758610⟩,
    ⟨m 3727780883872159131717390594460213570130544450049570057755183356105541863272, m 8386136758842587919634605449518202724059411281924153849662268275646032781090⟩⟩,
   ⟨⟨m 1982237921343806110254106697493959499684700323423256034875975770508272588883, m 1421852213546280684468844231101239754626015505969511502380232829006489232408⟩, ⟨m 4386748499127847200537984074899895780276645216785715666588506093679770150031, m 15784231537750672633100075115422662211686461313486558536557709883882268925574⟩,
    ⟨m 11312079548489045538674366784124607625003912853441517133006174303720972967030, m 159599989203556775212421402520696048397424866903115438845389213740975384664⟩⟩⟩,
   ⟨⟨m 6114201661336937185684646707422294607446749051285422585851737584282908421326, m 13733337647943994096291597984995335135257651166245359186490784664229155058706⟩, ⟨m 5618670328491381083978212719169126078792838231825764062627387864416665542302, m 7583640695009795383391356383079406582266012905800838747300640823966480580342⟩, ⟨m 2472688647936526203898521271546128609587550511285249249912099271192566112411, m 1016538986597875293943199337748104510206117197343028012837889794458689753987⟩⟩)
def st8 : F12 × J F2 :=
  (⟨⟨⟨m 8725732767812703507442187494123718911513225599125132183255444992873353764213, m 4124526066004310238905181321862226163134476655691072178228847161382338234137⟩, ⟨m 14313013102064113788245227593427160975138559457385632644673913487701864636208, m 10586664664382010468009589549984339826292411877607082747146748231157362139191⟩,
    ⟨m 15096982606988542140661206930936824785789534268709997156847491351261841730233, m 2965323685999097557619255326571174084642288815140404306732114947397625628721⟩⟩,
   ⟨⟨m 5642150722566990738028365938124737798449503315298173406196996174814981864709, m 13576518538072962699286619825930802091529841180410814088680170395899939614743⟩, ⟨m 5128036198781186430755698958857108291122040988464179147950957864605061589965, m 3728060199566410142025401055557852823897706445658988101641031720592559042657⟩,
    ⟨m 16052742708926892944996708704869791135145205713768759934866543855526658002423, m 2601657559139791486735919277688084862393444234490664376291488970003384165858⟩⟩⟩,
   ⟨⟨m 15776252873492503684455962706331827790162233044444962327125211138565878099025, m 10041153204344912800707874108908192967987085443333620328863369534148258838192⟩, ⟨m 13575292259079153733450736020927537833097351782886703316850484079567483036183, m 8322401897900611482450472798913139604999320447314580497589825057439619053161⟩, ⟨m 3615157385085824569693803841715424192380518808584737312849657864345615347742, m 10199304617990237753365203164394635544757766393414456334252409436724663075372⟩⟩)
def st9 : F12 × J F2 :=
  (⟨⟨⟨m 5133499174404033145354945153618444177982044324356713967777957569927874335248, m 12849681620736377347900769927706417198076460824980289850356794499120098039038⟩, ⟨m 10838577374908475524967539177183806711008062580637812772451333537153261903447, m 13091600080105204013288330603503104796108654328529002855288437685922242615758⟩,
    ⟨m 4079538830661206161648581788427006811873646811819579919983492297146944974508, m 7380372838864145502301920774624787098199736131948592709095585959914476749853⟩⟩,
   ⟨⟨m 9758038823617809133940783907664057377927241577853037731686647090271532695486, m 7880346059077609938920098554101358190012957368104123758682019372341064802802⟩, ⟨m 3539015308132839746843345411565096486693269567831690198138639833974541655509, m 2365793787257975309321845348505915570940396263682048167839720002944791498082⟩,
    ⟨m 15208920350631885913081699446963454146673147006545519344507656603110437778037, m 2315931354526414514764979466932662706498279575691443203413668136535258126765⟩⟩⟩,
   ⟨⟨m 14759942106750331939952395028438945810085584830603781394006247353083558628935, m 15280354738054764084482201363995891232038506750342836120041165880831905230480⟩, ⟨m 7134611427832141619610027575723593533882175414387414256710806993248726597576, m 13619948239359293151504839304592797368553313433828449361093652148058931386098⟩, ⟨m 4324304524660493447316039973258742003904289626838542908813649335113319843820, m 941483545802187556851602311965959652238940366000795082417247431078918001254⟩⟩)
def mil : F12 :=
  ⟨⟨⟨m 7977018235644435346454319021816390814435275015107012492159992044143000804084, m 2499043187427999554435344015668039245277666745875724559233209929668982384045⟩, ⟨m 14276777609580361873269214353106791280931277977475232160077924470982963678817, m 13786570009517922789451514484807506861533823996535421236512672685381987377346⟩,
    ⟨m 3388789338362952960819974352792428342101500642320276141957635104428278291245, m 11938928871694486760971176952849934290466922797614200003605939520208862433151⟩⟩,
   ⟨⟨m 5932786366040020410367954926277697230558517489699706624779307705709110745338, m 6992058738056552375485757775131097990934986349017838433087906393154100983568⟩, ⟨m 15156730575448786085664399529118583086782672007457453216657872486600593544840, m 10390466309318247224186748398653838044346902561058195033753738626513730839823⟩,
    ⟨m 4412220410949685071873510521396390082810977843091104103291600532651616757771, m 3496732564250925508231847172714678086212652771909265421482074000263684316171⟩⟩⟩
def cyc : F12 :=
  ⟨⟨⟨m 4785867685710932300589379750876554106722779839371526026458865515505900273443, m 12518811417828085136627581795745279735731170171090132365869629546957886496259⟩, ⟨m 2802721591380906072443421022572811364885530086063667790110902980894435850874, m 4478471353178582052069680343973652764474988393935494804216338062572365631020⟩,
    ⟨m 1093918594173144837689655119442362358910878759368090865928358128974119942216, m 13288111417420043867855745499110238788409480534009584636108733403160344837651⟩⟩,
   ⟨⟨m 12242147394383311340518997276858864347171021421584185426474518854206576962158, m 14254636769493450251659502928153252476894448113969195841859949721980598781949⟩, ⟨m 4311053117604310450087877791478344227127445105965105398250192570669688922123, m 10106669721929494423113576571181708894113306302126582696910794051942010880863⟩,
    ⟨m 5655546306896892082709024829083979500027484403341313147497212831431742214476, m 5409262977818593326515028291692926366015029496955721217152103459562360959960⟩⟩⟩
def pw1 : F12 :=
  ⟨⟨⟨m 15273280703846939547421145380308960300165283651994770399229946871424889096269, m 9283531923386941969764960663303334387612147348383474517483556945560723941430⟩, ⟨m 5829524459487083252031093834472658838191913734782717731269675067522007084550, m 12495445351671137326655460646113470333036052834971127844350938186089090802859⟩,
    ⟨m 5199289756843988508687241246651520801448609446680957910502877962480154421979, m 1503954221979436842461122985814246691659537928220371773899499660537307354684⟩⟩,
   ⟨⟨m 5120492065995508626856773236977693321657942012117428232038077102177981235815, m 8350613504184478250362245325013014946169739721636424387453843091030432814711⟩, ⟨m 6084339948371519949044122330809410208531106406049878934329207911779360156250, m 12184506905990616530255901589348637703832354926605903664255461746970762394357⟩,
    ⟨m 5307100191998662720484043341760938569713649301774296042972890227530945055946, m 13903557861605232859811794390293341215118591420069186400870940031139949875565⟩⟩⟩
def f6z : F12 :=
  ⟨⟨⟨m 9205716188023394302740246759236795243612215140633607062019458383353253705340, m 11779063484101782781961818509182409030411112253708530686508540413794796119133⟩, ⟨m 24064944881187951958812258313974543846888990972286907035653833821573692709, m 9617000242641549471106144791607507858432176606256421862730165793850464187838⟩,
    ⟨m 12625667662753772547102079011041958300965449962342867603130531736628595164099, m 5720519521992295484493007959028519722693930562069542572581340469165805540393⟩⟩,
   ⟨⟨m 16555081767840264365580857560725202261443547549427596364320567974041745497338, m 13587886682520322540193600854532212528551711129911765148441479410922419056142⟩, ⟨m 4117282578446126115312930844053447847829187535006716570205080087617915347606, m 5210006552054008429737595946403400703810406629221076407861265104689964494316⟩,
    ⟨m 427390401212237676830491734635930895290938407382658334775788152815828700110, m 2529451902585960600660838779108206632482212729172465493055803412904468997730⟩⟩⟩
def pw2 : F12 :=
  ⟨⟨⟨m 16004633333231902965560183838818940742920962257390695891329174535367471226268, m 6171563785573818900567487586438241660949046276285486152389788773583559480305⟩, ⟨m 758262202284307765440888964985184777773669117026355145807953380309036675716, m 13036083458704514604729800974654221359023369598078502343546120846594811207272⟩,
    ⟨m 13325288629898967409795070749629129028662201027331254418147331155168647739082, m 1391798450810796647706195840759888925152243626730271460394791909947043380548⟩⟩,
   ⟨⟨m 11707917308389198595428233577287450888720883322543600725902111598087133318078, m 8652102037892120928776462987225234485069788297233645594547985131434903135305⟩, ⟨m 9153439646486470043197365523672077963675681692646322941158243101203909946182, m 9310688946563339542645910460080478072514477006754689936898692504807944271186⟩,
    ⟨m 16639974036407099017135439799439964732118128332563010807223310589286253021251, m 12872783914671028641616624512902184454815466766098071168820614356437494623406⟩⟩⟩
def sq2 : F12 :=
  ⟨⟨⟨m 3350865596502304434343072769292295707426107239733932692963574224999954598435, m 9683734761911022028726347082187603827187003794299663296504211777503626205789⟩, ⟨m 4307128313172934782592090947664972811733393935738178173426913182966785264580, m 1092933245285669269357969084952205846325852878539801881147711562380018121010⟩,
    ⟨m 6548394063147142803916280037024202182295053657095917997153323564201291261790, m 6036743176052261357665680658774646940193555842590718333013764946547120441564⟩⟩,
   ⟨⟨m 14268671638482095052395430256635988179941219043952097015651995345811646733597, m 2625645951087954515201273476749881344942221635124186695990230180021228436947⟩, ⟨m 4197826081830478909876163705247236607586594838649735839033389544323981769057, m 15215080234278438191865509086140566750426134797386183043123346081211125499973⟩,
    ⟨m 1710684386767895633982208133416505693220518763250551890899368735262773480097, m 16337630191813838032710988616249350224537751282041122790864816370472001732100⟩⟩⟩
def pw3 : F12 :=
  ⟨⟨⟨m 5315484874877168849246234643254950399975214004235780379032205633777232080868, m 3294520183189329911557404814794198591642208282508648613086340636769842558186⟩, ⟨m 2280038984994317087353022764836429647947540806264803201866742204891414081333, m 11011934672795318694025725985902008557311382904284623293290045947515868454747⟩,
    ⟨m 8968688207951525235647848440671628078596950670760087709028538055773713071118, m 5349714538775250356050847693520881939957910059178113063268449628659052319795⟩⟩,
   ⟨⟨m 4140780959447873836979394256639118214055933638107076343437259286421559231839, m 15496939933456356011976132056282779876681408179176720078764538314769360572833⟩, ⟨m 5337708044040341894063733367473642210227095872314332554065570516340635091041, m 14303636861113071205387779490986076521650462353971065998342967240602701408458⟩,
    ⟨m 6436544492120698658391493853218337658055309612466426800508046000988295742778, m 8621039760412800581667174449594805324394591547922103835107787522441883765564⟩⟩⟩

set_option maxRecDepth 100000

theorem e0 : start Q P = st0 := by decide +kernel
theorem e1 : ((Param.siTbl.drop 2).take 7).foldl (step Q (Q.1, -Q.2) P) st0 = st1 := by decide +kernel
theorem e2 : ((Param.siTbl.drop 9).take 7).foldl (step Q (Q.1, -Q.2) P) st1 = st2 := by decide +kernel
theorem e3 : ((Param.siTbl.drop 16).take 7).foldl (step Q (Q.1, -Q.2) P) st2 = st3 := by decide +kernel
theorem e4 : ((Param.siTbl.drop 23).take 7).foldl (step Q (Q.1, -Q.2) P) st3 = st4 := by decide +kernel
theorem e5 : ((Param.siTbl.drop 30).take 7).foldl (step Q (Q.1, -Q.2) P) st4 = st5 := by decide +kernel
theorem e6 : ((Param.siTbl.drop 37).take 7).foldl (step Q (Q.1, -Q.2) P) st5 = st6 := by decide +kernel
theorem e7 : ((Param.siTbl.drop 44).take 7).foldl (step Q (Q.1, -Q.2) P) st6 = st7 := by decide +kernel
theorem e8 : ((Param.siTbl.drop 51).take 7).foldl (step Q (Q.1, -Q.2) P) st7 = st8 := by decide +kernel
theorem e9 : ((Param.siTbl.drop 58).take 7).foldl (step Q (Q.1, -Q.2) P) st8 = st9 := by decide +kernel

theorem tbl_cut (l : List ℤ) (k : ℕ) : l.drop k = (l.drop k).take 7 ++ l.drop (k + 7) := by
  rw [← List.drop_drop, List.take_append_drop]

theorem loop : (Param.siTbl.drop 2).foldl (step Q (Q.1, -Q.2) P) (start Q P) = st9 := by
  rw [e0]
  rw [tbl_cut Param.siTbl 2, List.foldl_append, e1]
  rw [tbl_cut Param.siTbl 9, List.foldl_append, e2]
  rw [tbl_cut Param.siTbl 16, List.foldl_append, e3]
  rw [tbl_cut Param.siTbl 23, List.foldl_append, e4]
  rw [tbl_cut Param.siTbl 30, List.foldl_append, e5]
  rw [tbl_cut Param.siTbl 37, List.foldl_append, e6]
  rw [tbl_cut Param.siTbl 44, List.foldl_append, e7]
  rw [tbl_cut Param.siTbl 51, List.foldl_append, e8]
  rw [tbl_cut Param.siTbl 58, List.foldl_append, e9]
  rfl

theorem fin : finish Q P st9 = mil := by decide +kernel
theorem mil_eq : miller Param.siTbl Q P = mil := by
  unfold miller
  rw [loop, fin]
theorem cyc_eq : mil.mapToCyclo = cyc := by decide +kernel
theorem pw1_eq : cyc.fixedPower = pw1 := by decide +kernel
theorem f6z_eq : pw1.sqru.sqru * pw1.sqru = f6z := by decide +kernel
theorem pw2_eq : f6z.fixedPower = pw2 := by decide +kernel
theorem sq2_eq : pw2.sqru = sq2 := by decide +kernel
theorem pw3_eq : sq2.fixedPower = pw3 := by decide +kernel

/-- the statements after the three powers -/
def tail (f f2z f6z f6z2 f12z3 : F12) : F12 :=
  let f6z : F12 := ⟨f6z.a, -f6z.b⟩
  let f12z3 : F12 := ⟨f12z3.a, -f12z3.b⟩
  let a := f12z3 * f6z2
  let a := a * f6z
  let b := a * f2z
  let z := a * f6z2
  let z := z * f
  let f2z := b.frobenius
  let z := z * f2z
  let f2z := a.frobenius2
  let z := z * f2z
  let f : F12 := ⟨f.a, -f.b⟩
  let b := b * f
  let f2z := b.frobenius3
  z * f2z

theorem hardPart_tail (f : F12) : f.hardPart = tail f f.fixedPower.sqru (f.fixedPower.sqru.sqru * f.fixedPower.sqru)
    (f.fixedPower.sqru.sqru * f.fixedPower.sqru).fixedPower
    (f.fixedPower.sqru.sqru * f.fixedPower.sqru).fixedPower.sqru.fixedPower := rfl

theorem tail_ne : tail cyc pw1.sqru f6z pw2 pw3 ≠ 1 := by decide +kernel

theorem affine_ne : optAteAffine Q P ≠ 1 := by
  unfold optAteAffine F12.finalExp
  rw [mil_eq, cyc_eq, hardPart_tail, pw1_eq, f6z_eq, pw2_eq, sq2_eq, pw3_eq]
  exact tail_ne

end NonDeg

theorem g_ne_one : optAte g2 g1 ≠ 1 := by
  have n1 : Ec.normalize g2 = g2 := rfl
  have n2 : Ec.normalize g1 = g1 := rfl
  have i1 : Ec.isInf g2 = false := by decide +kernel
  have i2 : Ec.isInf g1 = false := by decide +kernel
  unfold optAte
  dsimp only
  rw [n1, n2, i1, i2, Bool.or_false, if_neg Bool.false_ne_true]
  exact NonDeg.affine_ne

end Verif.Pairing
