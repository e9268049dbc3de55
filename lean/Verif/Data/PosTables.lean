import Verif.Model.PosViterbi
/-!
# The tables shipped in jieba/posseg, without the probabilities

Generated from jieba/posseg/prob_trans.py, prob_start.py, prob_emit.py and char_state_tab.py: the keys of the first three,
the states that can follow each state, and the whole character table, in the order of the files.  A list of states is written
as one number, see `unpack`.
-/

namespace Jieba.PosData
open Jieba Jieba.Pos

/-- The 64 tags, in the order of jieba/posseg/prob_trans.py. -/
def tags : List Str :=
  [lit ['a'], lit ['a', 'd'], lit ['a', 'g'], lit ['a', 'n'], lit ['b'], lit ['b', 'g'], lit ['c'], lit ['d'], lit ['d', 'f'], lit ['d', 'g'], lit ['e'], lit ['e', 'n'], lit ['f'], lit ['g'], lit ['h'], lit ['i'], lit ['i', 'n'], lit ['j'], lit ['j', 'n'], lit ['k'], lit ['l'], lit ['l', 'n'], lit ['m'], lit ['m', 'g'], lit ['m', 'q'], lit ['n'], lit ['n', 'g'], lit ['n', 'r'], lit ['n', 'r', 'f', 'g'], lit ['n', 'r', 't'], lit ['n', 's'], lit ['n', 't'], lit ['n', 'z'], lit ['o'], lit ['p'], lit ['q'], lit ['q', 'e'], lit ['q', 'g'], lit ['r'], lit ['r', 'g'], lit ['r', 'r'], lit ['r', 'z'], lit ['s'], lit ['t'], lit ['t', 'g'], lit ['u'], lit ['u', 'd'], lit ['u', 'g'], lit ['u', 'j'], lit ['u', 'l'], lit ['u', 'v'], lit ['u', 'z'], lit ['v'], lit ['v', 'd'], lit ['v', 'g'], lit ['v', 'i'], lit ['v', 'n'], lit ['v', 'q'], lit ['w'], lit ['x'], lit ['y'], lit ['y', 'g'], lit ['z'], lit ['z', 'g']]

/-- The keys of `trans_P`, of `start_P` and of `emit_P`, in order: 'B', 'E', 'M', 'S', each with the 64 tags. -/
def states : List PState := [0x42, 0x45, 0x4D, 0x53].flatMap (fun l => tags.map (fun t => (l, t)))

/-- State number `i`. -/
def stateAt (i : Nat) : PState := states.getD i (0, [])

/-- The digits in base 256, least significant first, above which there is a 1. -/
def unpackGo : Nat → Nat → List Nat
  | 0, _ => []
  | fuel + 1, n => match n with
    | 0 => []
    | 1 => []
    | m + 2 => (m + 2) % 256 :: unpackGo fuel ((m + 2) / 256)

def unpack (n : Nat) : List Nat := unpackGo 300 n

/-- jieba/posseg/prob_trans.py: for each state the states that can follow it. -/
def trans : List Nat := [
  98368,
  98625,
  1,
  323,
  99396,
  1,
  99910,
  100167,
  328,
  1,
  100938,
  1,
  101452,
  1,
  334,
  102223,
  400,
  102737,
  402,
  1,
  103508,
  405,
  104022,
  1,
  104536,
  104793,
  1,
  105307,
  105564,
  105821,
  106078,
  106335,
  106592,
  106849,
  107106,
  107363,
  356,
  1,
  108134,
  1,
  108648,
  361,
  109162,
  109419,
  1,
  109933,
  1,
  1,
  1,
  1,
  1,
  1,
  111732,
  373,
  1,
  439,
  112760,
  377,
  1,
  1,
  113788,
  1,
  114302,
  1,
  32227144514876337266739725400407070219330045816115147483515925175637230079542738327423403325758065576860695233160627353525209888033252366092214573933740018084722454372259670982912,
  1747036899643186056385618879770960350120915126002297660996411920630171216094821999930217499338133965873873773242611483409207152236038641461216567607215444394240,
  1,
  6824362889231195532756323749105313867599263671697785432096190654102807472259207341113072278962263082844586612184540077669894288544767323668844238489765740800,
  29368230874784361856607969371824235964045874681875721521366621753985035033500223437492736450198385106819402479372099653297125641746798629722328361311392202011940421888,
  1,
  2112038142926935639113054643841077753894013883349934859321653052628035980390967070434965183682680825697204261302564415286329347002468333684604905400923664552408206888179928959241355520,
  491747200239201923625789266973984836110382779176561698662047198114581757805522740559067130218272068360260807816852372123356784904831276354017640575503098345602200370076123392,
  20054229283028505263789253586695124530253765990351788191867702471792506744112354686224511152051914053083781312628850944,
  1,
  1087141947809096284506257091400309596515716891322528086069421584310207687282665777935153395476661760,
  1,
  125887283261235692448202052345340166869772134676799958030450861657272091548631835913788643973921882589302233154579454525600155828352788164904083829079774155117239614976051839232,
  1,
  139851025159821575,
  7503466800524931695950153609832532289281963793587672364035908705300834309083668793154819498482648843984226758449893683337463159848236930840014545399653331951835903361280,
  157514481551078610893763319303,
  29368230874784361856607969371824235964045874681875721521366621753985586126531782969910641224977110335045339858121912412878995706309287860042831406640762135572025377024,
  8335538201,
  1,
  1920887500934382514163239324117128077802102574043022902937436626558388786068310742572505104489241905139832264524576485010223524817466343859136919057455166968874094752366848,
  10160289767745429080019945674835712,
  2112038142926935639113054643841077753894013883349934859321653052628035980390967070575498187129869115225501504500439886405370985767230110469315983317956284769196111646049212452172923136,
  1,
  406763725830983849332113489455301396111239475664286329642965439352547734335794018042022329923361488968910524391670372351567897819960101482373545394432,
  35434120124124071435497766179524844893035168360674647227026700784980555742890543216431559235830268744163145780864333320285460364927055878323445356427203645878507413295088037803128281578537216,
  1,
  139232500923158987117733007167481757172243271719467496893099444865114789604669694712762810949447938980298488399832307064384506909477141631230387219792699897742229721691815913114233544573184,
  1747037004801661636668758841658134840874514326493995195237680692288789077734563322438914898884938203858997110887680419228751838121622434239368899556434585518336,
  492717152924126192290472929472479520992019953603875688964867498801978016062201997121533279334316680274443109488748157178562078046970429586989718327102712176187168712342831360,
  32227144514876337266739725400407082718661666477260789255795420584261655436449749993921516373418637148702892804529402222534209192279843481014743000088258790740933220052575457575168,
  6824362889231195532756323749105485083748078177006789360666277158929570509147047695487510021563050257269273716442859417005916632766782616953374542134256009472,
  1920887500934382514163239324117128266056182731158444135398621867635084991427823205436670978412512419130534604702607974129255366087911587047007428538320683849858416656974080,
  5644980674998410071387298778890237395556287942403678532856698724482079777395058489777761057405138028720705484441640517139882647421184,
  1747037004801661636668758841658134840874575045295182775746656855549343261587990045106590423653808057089774459270331896613934587108118838265985356569845096972544,
  26657669140650354563427106348543319886637319603962028097171485915242404122903892802458942888965538150226409464647703916396165204176729336615648070606192896,
  123673,
  1,
  2112038142926935639113054643841078573050210974256673289956253813802036985331210089709255649794952198515125625594274225615988222211566320533290638741755653081566466461090152633640091904,
  1,
  3457395890473125722281020076804730990173746722353510013650253398023734272,
  77412136731789506496842567336199543224325313833028578998417962369697301858131606047525061494422013101778554356695296,
  1920887500934382514163239324117128077802102747504775333967215413957096841013808403330111233772170440031024084704119335658598580782215260205540436646102846417025225793405184,
  540681764589295523612941988823316114493866459490663004830483778439122952845178516787497613953413849531047260792628002842586221690497951080006639946481007968544546111753533177878959816960,
  1,
  114493817146681491631509166355638717618478444808555942526252885533399896818597401352038455041133096120022772038899602666219401345394439329946984781492122531548823808,
  1,
  1,
  1,
  1,
  1,
  1,
  2322210496454595145596781604341340234909952793685173680670421862644485701166074640232662250733186821384153883677034935723610645840447774858931463719521908428359199793970638386759800224779579097344,
  86132258927219429275217679508808091635820958012098931954141184524531688261984841671619997666978581976097405694210585885547888896,
  1,
  732068968573397774774635457846862680956350289609728,
  8250148995808342340285369702504213175977386618178762049483627669570983791731135998443908191595171110008536046450220736689228982494050580819837582629432140339418767470872404070433024,
  1087125162377019305556859210656943211799587185095481524499798815934985098918379903748398212748345600,
  1,
  1,
  6206721890731565083803001242909262025568081000249596016928404775645219505481919160448718018484405138367528878184376804577118355105838653302309120,
  1,
  114493817146681697020723779446907524931556150168465097783041919109648277819979691703877529399611621911037689234069526279175222744903321990543567302196766146478407936,
  1,
  98368,
  98625,
  1,
  1,
  99396,
  1,
  99910,
  100167,
  1,
  1,
  330,
  1,
  332,
  1,
  1,
  102223,
  102480,
  102737,
  338,
  1,
  103508,
  103765,
  104022,
  1,
  104536,
  104793,
  1,
  105307,
  105564,
  105821,
  106078,
  106335,
  106592,
  106849,
  354,
  107363,
  1,
  1,
  108134,
  1,
  360,
  1,
  109162,
  109419,
  1,
  365,
  1,
  1,
  1,
  1,
  1,
  1,
  111732,
  1,
  1,
  375,
  112760,
  1,
  1,
  1,
  380,
  1,
  114302,
  1,
  8298840191894979496803177266347642188251269394772784957174518963290613831228645289362411620488415887157815004027085791743396364309868285558938357028336394903367918969810305469841664,
  336467067897070508890425205712407677358895785271908119670028266953604878401704954118253098354053933513556093310008296833548544,
  1932239103761166619819443340882905326615732002792067224606009823006362873360441863115197029973581369523674394959015761859583407382600888123341140929015985411051552445235456,
  71246934691616934101447685091456817508812087656314204412168991648244843124197709502294232516025213387520,
  1932224303459511021339142989913849666656911786205972290875766079795717873567760848959662348502383346886182025926409936818610386649365867864004628555757701773142814670127360,
  44338780389121764466139149150174359404419865,
  2112038142926935639113054643841078573050210974256673289956253813802036985331210089709804606839667777771095536700515926675046978612991171223855916389869061754289507899274280356599234816,
  2116204057987352765264588564457614077890300072597336707247277551152422611989488474370046182104835345886952790177917978157369205529401182401857763399205718061227885493418378843801190656,
  1,
  94893871870711780704596900580992564281577528561257707584206824664675888918689028682064118216661471656955708394176975595164563472514224947456,
  406763750315099404349168492867177082429308185245058404761165279674552560975848463745118026730921457451710876420253065630295279004914544157674451435776,
  1,
  8266422101513096739314799079912554979259653037922200870912398438780526402727032341339342078580167157367503376477460630887340587803303493992680231822878636709596755095497130132046080,
  1932224303459511021339142989913849666656911786208619107166678482261942189660644880662663241655550410492494934281678401672404483425338778016398683717116248943962448994697472,
  104131513812731865429021053300559769954652071792706136484775957625268104692796209596841145672317757147463003392878189992121419147102441907521815956357376,
  1,
  1,
  32290711334035534137948433905908417887733019679439094039402995874179522972931633880994268219288514660492029437772662506233468678354506840249997073629721609599472245836226379317504,
  1,
  29310417189550514437305287538408326382478371796310774275778757119116039826481792336616594002059943726712379844810160740905062731958419514314733231759488276242377146624,
  1,
  1,
  2112038142926935639113054643841077753894013883349934859321653052628035980390967070575498187129869115217823906853829072831508959940522749253204780449833061180427176289334970147617833216,
  1192976670075825758073968782585237206398781377930018163799014356260892501723225708950407823129399758539557569536,
  1,
  139231434448903520333438214483803923873300222455020159109825196548362154761845825194117440127401917567358110160005310465353306048532856552224109068521553491382156961066282321892113507352832,
  139232500923158987117733007167481757172243271719467496893099444865114789604669694712762811498404983695877744369743413306085565968233543056081077785070348011150902443519568873541122188837120,
  543876956731089793428644559247975613954075280154169909738669706504354646893240994971729732415644467562022438827159365230515922934770153982915818996892489339461163426772087639824394289408,
  1,
  1,
  1,
  2637503382238657247040092099359815710,
  288,
  369949453516695802438438012773359879597932154780216447172607723253381729087622037681472751518498007030705161890252127112070852937532047616,
  9124741180500147379747750357728084438040135055407021876386165218680162851531633112695623578383020129012841735786617630717885440494913593045956888059457344564196105900027247725750033125218648320,
  8266422101513096739314799079912554991758984658583346512684677934189150828083939353005848568111733093733504052931872343892369017807328555396803462709189318875222046126956510902944000,
  1,
  483,
  540681764589295523612941988823315904996867554137583323986343181472777210980087570031351087022766291378499498448402872708975732471733535654481978746702219464196193288560533730034163319040,
  78339848702310147517709537128449082034763049133100790220765192430455359281480593392492805762595281256839916621792256,
  1,
  1,
  1,
  47981006569939598621881768477905935436824448944836385036,
  1920887500934382514163239324117129011074403910476278988386415052265908330201646176382615203506204300246682897768984002398908602604214918997652849348666053236967974044369152,
  494649421685634821462820605417945514475915337111613485231734931186627079427987264903657850599045240099443984557783463804013902037496715818279925790192358311260656773718278400,
  29310417189550514437305287538408329255007671068701845327737760431443557608456774983339021178536674064403333744784691354160125954594790305211786691918995797814334914816,
  29310417189550514437305287538408326382478374443127065188181223343432132710513494838243797169995398938148292307079269375705882799624036925995243327898819916243340034304,
  35434120124124071435497766179524844893035168360674647227026700784980555742890543216440769206744183675905165216821114727002905761199869620945414844114336227354210373334032978481449762616967424,
  2124503089125114751181613380184996396992496070175478502042010445379061199368985369782737177711783407054683028670865731367819060849256012536280131167616795846882364553695285148928639232,
  7503466800524931695950153609832531553914463179855558214599361822493706195579338965988849061914501233088999980935158647659311896288783110046803725585647167057013814526208,
  491747200239201923625789266973984787917338258955013863151983776398947529233487558474853241444270907586747237587789740046458052556478972927859141573901742676933787662772535552,
  597999038005257658679148567444067741731398290991154585690843723771423152637977107673620389190662161137208122082296092061048743611213642316076123011309261767231770660669167043428268979530633775874304,
  1,
  139232500923158987117733007167481757172243271719467496893099444865114789604669694712762811498404983695877744369744319746996047325537613011078782700694126341006144473384442239911275073306880,
  1,
  86135574566402746672413264366220549553592921033041694333224953800434865598393517718229810846357302787051337564089804821457273088,
  1,
  1,
  29483628902632612400489570258532777996479768304904437168766052021221155957410450618252069272616759397079500157841819349050439629668137055501306531432279420283874640128,
  1920887500934382514163239324117128077802102747504775344172644653035168249316212397591333419575620448619549627685362788174419464815747852988460767430710451903050736195535104,
  43636756510165125487845347650888492543647001,
  1,
  173198360895482268679237945895912881700916]

/-- jieba/posseg/char_state_tab.py: each number is the code point plus 65536 times the packed list of states. -/
def chars0 : List Nat := [
  326569669000866307025559296613440244706229774745102636148622109144640505045715502414021383217095909799095185817612306498774002859171595447874224541184,
  173076478298524502648583588965517622630627198666043627907550567424712512950116438400257537,
  2771708367863586585011107534404173620305969993706977170729580900396715523,
  205080423274547921615577738826743573591570679409767627254505957708255350342703525521673735,
  29623405875972726397744733668009150307192328,
  233699587497903836973810027070856718146077401767394558262626238876926685765426013946820941923952221326486283898377,
  270125583939586508232231215696764843301880981249710427512247696184111822787538305907779506062597167602818322144281030113906186,
  15233442226964158886708387023167669546381072524714998842100267168324598328900743221633309943624978548104337978002829473136264367627,
  219330871072708130042286919922336737361644432700584810173111057869643295494026908308260519970439908877,
  1913188912441905973231099752176361762602367471118,
  79195193178934800,
  2012885511750622618559054507344683323182096237567285315784209,
  144528839791003036549347341637879355553094954918871872992920030739,
  107570769863873554799760133652,
  383297306578453,
  14822416353965500624555379793080005765857705144921963199392490613934899908415797939899121140170360958307862,
  10130765423084324494337017263013710467476332126818537131544,
  27932680935396913958713474764313,
  44313056014427100325361851032642040603453166058032514837672616934705832374109383499974266394,
  9384816786574406858152792682507891530198252665656384769563,
  219605252065088230654458374202334099762145825031476073314399155588569895298325373134485094300294663708,
  205526866081318430473454621793637040035482073487487247143239842396756939446950844543094301,
  98051816718683678,
  20396543228505247266,
  129227824658317367286274317160172545877897846040550566755201216994157845171748,
  9265707123089940573635554084652983767035197694352208203628254030956473070234127909,
  36244523126912429319329364735505179883097639,
  194317182475424990177340671395294596270756082298952645809135157485806539918890,
  501347009674859655120637483,
  4465887614217056496187366423333587061380651781118807034363076660021121433460431396384216138626109489774758126999222195878763235659309,
  47851221703049817735006415015031458513276063862890122201323978158447513355439664,
  584435548583597250710059723828589351806996776767026,
  35845819225572029743811210478536116345786837167451667557455058193972,
  89317326643543971557646356024,
  113667693940864587842683673602754966130345530219670153809155214905,
  170349893732125116827084819981717794808199049115529493140351326732726411873850,
  2576868620871635967525615027316696793740606661693509293232335652124184123,
  6911496212709217878435307051923353293779753943899952727458999611444797,
  2187389092107620350493951013551162569627509707967056569454142,
  1472332170241750055262659546243681859,
  3142559480461714943316607950764291097309174063723399310086394525275301653603841756741,
  5836590663,
  8338237849878348275901643952115272,
  36108263768014364809798302528684867600680355982085876107036749165908102445020182384599453257,
  48011226722714808726883356954018939506546797549067319808766196570095747163049547,
  37025581713719527546913374506294102801268382295768567558530718912076,
  25009771993813700173,
  128152565614773964859726769307856671297102,
  2610439938400800548677675438795148879,
  3348834140132255475904568194867006458716909458474141140236722913603336973185046242841496619929168,
  1593127625061002162818642,
  29931381971530370643,
  380170930734815592996177894375986932303293392309844,
  31660117326890432852938165603926,
  170548301869734174463812071697408992461425578795055880086740029016,
  7863501205766163298973330681254709749182189145,
  115786387837111900,
  800601687140481277744316410899758330314714364689419438696244239664401959822676303695453,
  5761837561272413212254,
  29628916530699900061701458509637637674323551,
  11667876128903753326131231215439560978965030589800058736224,
  729919193216285729525282094619088070049708846604980420878616242289049685601,
  125118587255289671827645717710538409173464898963529543423854017938738103537254,
  6257593961,
  39904378958676280580177246640079836691305195291626720880,
  27025875024987230211179260097200107418426493370002379349574365433457,
  9287568771383668593586844824678637887485988467,
  1808837192205359984067424979298373246,
  154923869636058163002648762516300762805088458139023181247746756230,
  7070405272809155585476445850586760,
  541737139812854056988286197973805203298694413913153337250369161,
  50950585368571994322263132812394625479617029237567765461486642633368010124512907,
  49047107026961082599651865845949116035853897316734841265000888234515455462561483850196226506580051775116,
  5804609165,
  2586878437244527974324903319932559180558327328208421452533390,
  1739430803242310654909449843032739471,
  10824895542937441386762472949734668023143821580977807843505256908226043761420488337,
  1646231177081836751603093227058656187268108603026,
  1765698915987,
  651409681558754891147379726840799824008151364994996528417939772998527893008141497290388,
  113640443471907468015322769282502370471221105284969879363657485973,
  455262665461400,
  560197230454291759980200716016701326688354782303669068037508762,
  5290409495326279550693452252860059,
  97693840558018207,
  94115404758405940353142754585202677534369,
  1462188409539788807903923998677487266,
  7589397594534746309606495035226615601122428220645736391462070486572961009585704612,
  7363391185549067832997,
  22681273927525662750272083414694,
  159493413379614940769078397389068559459138898182376304617064883469994644033191,
  27659976807723393595224830594728,
  95351687490154469899892051625,
  537421407351949268774687550792757694123,
  2520639117867692385449841566111917110938502772829474156072620,
  1488111444593012107288063206974181037,
  2537901559629668399162090380263387301478190525655578001559214,
  128504696485091899053071883498130311976209125747548698853632462514,
  1490873437875,
  1101461212853,
  3565160039837814275790956716416352765738170195832538071957808914346080875126009404837937719316533337065606842,
  22290353615672778557424628289215,
  7863374795224908407325471177784413053258190528,
  30409780099478287137682703597248744309683906302101215529855274929857,
  25029951539732238019,
  1209005592260,
  8343284925138361314231534171410117,
  21519794294106305973212149272262,
  6352494406481271182414201249489498199211724487,
  6909808329,
  509065658132960020175162636759470822435930268978890,
  24564867825124909427357771362493452936397805233861054155,
  115786769332915917,
  10155974421020585539924223776093964110105220888034354924036799982620366,
  108127060110288894719548083921,
  30015673665461269858462373039603665798051467783167861841273009295059,
  379318574329739096255478286042871713492,
  6188061674660733472469,
  2606275375203135968491351307344400645785416383731350551023318,
  537836592167271248604728701975870918359,
  1853821273929291996428538046492967883428060221144,
  1791048622044590680570940883150589396205745458809560844881625,
  312104994950877,
  98687058417241822,
  381627554746079,
  18894561,
  968811517161468869090853927319887866896039089896032320667553899956672171537342117304549189451510733162991537891,
  565821858053660245809504813477758878600369291760870637446975204,
  9317647907333430438699181787036463278063540046819494465250793701396197,
  376415611932392,
  2600981350532371555076559374955884073878627244437077350764266,
  6947884779,
  107585219409962406462263545580,
  1942318649194043203667439578026449800547540750064,
  35900341430959375646543626916613206312701682,
  33246963,
  557572035268341,
  8911966472291349368106738248714350200503226102,
  2118635298588180780782031886629174896571056037873346898644727,
  2597539060312573677358531120653690043718161117577562166506174569927429883,
  10164990806284250244785154579650580532193982887034663554813,
  629536688598927180457458851567995670271,
  549844420824752025828534113120832997093633508855553,
  1494029520649,
  9791744095188314332127628132645189605969400241276420247306,
  497072506911250848661158908680072345140892689583885,
  112408953951506190,
  3081573043808165795307836656799894779566423593920283016399390362173812017117659418383,
  7603876429862816553764701060315954155850649360,
  42243136397786463370815517842811256564746412450644053260353372704529,
  54813406378307390299897773249365565823683623988541463383335829846791808244862743,
  10145845976931678773124510456654192785505013144441403010648780383538968,
  2146685441812596895636218304932326585095954190105,
  931349420702308444382660988543447816783679267772819270421579377048571718241664456357763786768404250,
  8392036123,
  32592670565599336028604301135646,
  8099384989090424636418052325068575,
  2066104301607834189731793786419675699186028605552040327814526082947305248,
  18435874,
  2536037561418034231365107397138059267447405502776471729753892,
  4719595301,
  7855054737645689058941098759174566327375439138414986510319177185513254,
  1498867322663,
  9178115402478820069404616250605197133149196074,
  1494484274987,
  7063187900707412535720521305126652354522353194249538457391,
  7042461800002947787395868372062000,
  109126373101362460475941736244,
  33004907369424011347540385484598,
  8900785050422787789521485405156629053860761400,
  81192577280528186,
  580313724083134156349522952564093964092,
  7556256013056416108349,
  6375321415456145362755,
  21871646098899146658964520193862,
  152599738291092001207161808072570198616481412363409671095687630396402330849101,
  180621804190534151614510411064891708452021016822924019887141129048687938391886,
  2608803179414766513152409478132645245785048060820335231258447,
  7857887398114114944227834039820199304210304848,
  105892162603077457,
  219364003535751056428951518352571159264179188330379346645357160158381446573825326839434146016126390099,
  509957052570755064422588470625866662815793808092438962074316265381519839061,
  457795419459415,
  1232036646744,
  9250291960829937438656870666866804607067071159018080888717525165210288924810170201,
  7587329515661443878746,
  2592824524063031303664651797539392926878437667194326390689627,
  175505724396501407165361047629521886147309767541858881936589075935219871666012,
  5169041245,
  1374814818142,
  1494029651807,
  8302201576522829457903382339932000,
  1942543074822606292602723,
  384411671482212,
  309621437583205,
  25120193734034445345590021063200349443346281,
  1933137954046693852467052,
  6244552559,
  7680048846047326982000,
  154170333033571559426147299629102320274595450613288819,
  451967148838774,
  7738511227,
  6863540092,
  30232446,
  474556290365859841049800910798482915903629249761151,
  32658120390824976393195767484291,
  1758136455044,
  1638671848804302355779464,
  18435977,
  1983703249366038245987097790782429939330914537355,
  495615228068334951076548493,
  285989409607567,
  1766771740561,
  7740280724,
  20291986660277702551,
  9260764051428329785054781321118056966641700763,
  128909778248297362838711678359576501872648046349463136353341184689107949277085,
  32013008074012223392657947971488,
  449810320150435,
  4311764901,
  8338653140175879030135340966104998,
  9140784570227802992958420596682125520589836199,
  547137532391009341096065906040284729256,
  1760086806441,
  115799246507691946,
  1500483768236,
  6938288750513469280174,
  29625020495924313607125673086641461274562479,
  32968239542454757545918061629365,
  32002092704798080289063614313524297134584572314827661182963757885044985050910655,
  7517124536135444939308435592297278181756653507,
  118962725969997992875976044297395294326724,
  1766774755269,
  97001224250786440812698283747561103380426,
  115773461512277966,
  6462134033771066318209896083902415,
  6283102439377047932880,
  29838981520315535313,
  1945161558746419143903474649593993521240554950615,
  7553390346929209692120,
  5370367962,
  33247196,
  661723697830857102812057223172925178394403949921411614734388098959005688158068812304349,
  80039618339885022,
  1501560524767,
  13510140492251491985943720902563887009094512255253815148112334542317023709956438123265627082721,
  382198838153187,
  5835149286,
  20205544,
  7495094875276304601065,
  452293566222314,
  103756791394502901908081692653,
  9316781216474977437455535943764985463793494609964331870464626472013806,
  7453951399438610354159,
  8449000382197456893437345113133041,
  1490787389427,
  97842623906795512,
  1491006279674,
  1232489762814,
  5801594892,
  38751764963339554802326569679133755621479570698795372557,
  7667666959,
  40307715125141409989518290812443273005444899855021112722829432082450,
  7516213268,
  1326172229656,
  33774847761398427431497024050394578149482443326694707225,
  123515141603350542886750146586,
  115686833825468444,
  34798741751390502938911673529314833228648479,
  1942582344668861340864545,
  2179947581477,
  24146331378565271590,
  439585620512808,
  28812651198643130409,
  1344029436666847271014442,
  1766771740716,
  1598161571885,
  30232622,
  8094315382541851227176839331532858,
  2037721449650894520857159825378294070902670282750418770022460,
  9278883319049391817862837193349010192445231166,
  86722455181086787,
  2865103809085251777891342965369794610372046198178796533924040375890104391,
  1490786537544,
  1494212694092,
  7361355493499582304334,
  10202207566743341026735287688444426481505295509327675084879,
  115860553334149205,
  139883433638195221023686127167678528639066,
  10941895618304572900075666022182417434558906079172713795676,
  10463789408139715013223000870071846313176150147922143260159211053535333,
  2178878034028,
  7653318866165982534235716688709835984547155377433927438454,
  446060915080573951144895200954428969079,
  557837221908603,
  30232702,
  431441580259330310443409020399778287743,
  6897094784,
  24448114779447675421951436345477,
  382212815999112,
  5016963669681200910477,
  309644880793763,
  1377716621477,
  18436263,
  39894317996440951352546919606050476636631542698694234280,
  4727853225,
  107613838067700946251516498092,
  115723396473040074625529050890355800559794,
  33247418,
  593642339046934670065599410274874446011,
  510615337062553735428050279633993153753991957729487,
  116349348107604182,
  124017851112181978,
  30232806,
  135976205457385747602134821509006559498471,
  33247468,
  30232813,
  4720251118,
  558133690781939,
  33341665984863554689157519597347181405229301,
  7592676904595148001531,
  97729767029952774,
  30232839,
  1493794967819,
  115723401188703465109682219918522272272658,
  382611144397089,
  14392792884860577017204879674030547862732179357489209303886243087915443221352844529364520931526131276403007,
  7546545551143684165952,
  1955205199643530614808149475726741825,
  12305874985327706763784898011322871196218189559715686058882400533544155544678715715,
  21871808035773922758397898871108,
  41762175769698373439663890039947617237811898843255624005,
  6871817835136359231395722564673641511317623110,
  10360649670685553560338773175412423365521089992509125609891403670971998940879606088,
  50662741517879977672933728409685809190715882312332919554298601088678233542323855873934478902350897203332039193844189582979584329,
  693298585457166375980684807157302623107579767310426606692384141312310382320208494562147664379203915,
  10079618291734925075921880439890759848933710993327377371469,
  411758340322931475221860689,
  98059034470222926081468256491721442611540,
  5835149653,
  5300777745851879412054,
  10476832125904208108624310357881900304497759382940168469730154482585946,
  495253623094180304797516874620438073692,
  25080404205693260130,
  45923408894091759375422276500659903111538188793724553370350067667301,
  54400571900201604721380699568168297424695902467729322139994774467645665553884270534527797128263217271144,
  3043879536988801461542479269615187510866700895004915547501412098211865709969883418987,
  171390663623984393054452601870868006870661713688876693890360066162380298860338976754679554488963251380961242241322763891069292,
  38809397120771848941339487442433519657892731812276792058340543984170391142027629,
  1608474536406901178782062,
  592049465876236516469592357316311236836447049706646580341959152215370125680,
  2381516506944026492753270023611902024030377867405285543074831475170300273,
  8842934656678692507810042776734182757963799129572407390435775545337746502450721257468315914611,
  183322390005824495081704053605231347085875817886355073271130619594952628132042128421338174633649918324,
  3038287872937644749939447979358521315614775336761911197466655888812626293,
  128167559693844102887022386915316712337823144950166338651348008751889086042486,
  10698314727102734433243170459708129747510939059018722988407,
  2010827383839617560337401443379848053458898342264,
  30062436195742039749430723510995306103394681,
  10814163438212893907914897348907496132848248792952372326236414534766971,
  533431029052485792220875880592926069116,
  6897613872972954233016237652791677,
  6430373555065307018120441398631368853481738624,
  12534801747824250870684843041439899350191054219134266068903843124085217930236319067154664423361869664306442056086868357,
  552446666686483072304344722451564745096,
  9437516891848175210889,
  24946888964523350067077464422585821927068044,
  1562127530215023937529544808594270027249007153549,
  129951930141068889732672375499587344795398656419451282,
  87153394339427875166807675285,
  92112793515479447,
  6436605517708643092269828575253944884360663449,
  560199465945294097305807244384070143365326629676714587116715094299787917541776486388123,
  46236828210333560676847735080861294807559576526606408934654125207068000053186972,
  32859334933762299174279331469642166898456556150992499387020642701728,
  19553324846607389090,
  21912872561098849295989363790244,
  1932600494271834344988507651597554085,
  188438647113409492847018365264945339256463577436513026002538796638377289142700,
  482801137572808361808449967,
  11204034579396963926496212556084655935779601839771542886924644743991728,
  732717090158978253137502198475965949557055864704927632377207370225647112626,
  668615347456314023417206095622115752563416421361719689312752051,
  36178687133236191974947482075563034343461301,
  1462206600470425730355737672708442808973277090230,
  49858651736173667724066381719577569161250854738231580902832483210068821350441669519264993719,
  36240193475993673218191355507953453279498683,
  1223446712764,
  1981510865341,
  7070299876794905167466442043752796226552329765709590122944,
  118319457695890678198904574404,
  180711898362013604636537267948098168876625128258675058962311544017543090164166,
  452291630682567,
  32936563170981159649435794030431279275560635512916305537129208107465,
  439761704866251,
  1909090887388631241326429187261269369172994345736888828610482590573089228,
  553395407413581996707831759933111816655,
  1767814919700639825252730566603985361,
  29615810029759123931,
  1830452937971563413597816243967972351963492012509]

def chars1 : List Nat := [
  11005141623166462065964259318005593505647456783293972374339042592313824,
  11028724738158159927952889325294852360601330553291400259449320651575777,
  151291170582803128214470023652687796481077982443295204,
  20206059,
  35245446680914298812612574633534572825039341,
  510963803039990957417426232833235096931093234536943,
  40216821903822145365297495364080,
  95801658677219827,
  1623003329002648510251959754631959030,
  530837584838673908978856361962629255672,
  27617272467181700104287013589497,
  630639752526030464476285917359436837331509252852987692919443753659886935062978988626426,
  2369574062939109707814859542277346092164146549243,
  382196771541500,
  2074952744599263202850165652522095101,
  1436076946270519024739001480256967167,
  6770241623157598185545732665201509136954783579647881335296,
  1620576281448958461308807705366581761,
  115192021443442727000355787267,
  64566203410850221922846523337398362528929275828960608232397161769514998490287161308084787128025938690243848649855494,
  2364407725780095341880191889317222072874419265091026647226311885388539227026880248656319893361159,
  1491242209800,
  553049074730721756239528067852481942026,
  309620777439757,
  7741919758,
  608895871818555915885586158585398003115535755727377,
  43873701318655067270584507358566864233944054647123360822338929644050,
  30233110,
  207178136206392306350791978072497694454866295282819438864036998706120807212403140775531031,
  2151518802756059064400428970479931928,
  521637264491200573441341171698045345987286230162336215787328025,
  7046276654278386576012672148572261334250183080662916354586,
  2033892936042811302071667790890268583057965777062906255987227,
  11896146508656566709406432598668412335460259990566365980538230063829558456975381021,
  6402837413021846098464,
  2161853498804908133523087789336580644,
  5323712213628545684008,
  15309827266382688183223212101057124141055998592738826001027198040856221461526052833262603357712697997742633,
  205453419781588045226035420670011346289397123364634967158923127718784619059088331333128747,
  5835149869,
  507870750383743253447345171287501984302,
  1984267395764772234413315509852433646856992739888,
  30233139,
  2699128772573134932652082816218435276091317117836536952183990633194869302,
  383649104541188795826498888159286546999,
  533433632125866142132834761414291313208,
  8446701754837780324197094675665465,
  29919815231670390179152301921171425935754508022601503290,
  7848447992398370264968008667042650593068986238841245081601194123022907,
  18436669,
  30233151,
  1769448624704,
  5183394369,
  488838597212046808197976642,
  115180548409020995,
  5806611182738985012814392955084994795996992074,
  1518739935820,
  826976201862668423200237659214540607327754054529031943611771352044317632724866543650820914690991464681246052941,
  5636379216,
  6990800402702827686903783152810240565179558612860948533841,
  89149817183124277322312864340,
  32590956763515315650982420173398,
  4562637404,
  33247838,
  1490872980065,
  5843994472303694281052417489654373,
  2349964839691705606073361409547842177807806976615,
  27540322166845312679201285100137,
  8444696987719308478820808190612074,
  114103069544383545224951265443975312724591,
  36244043107085631568366403715574802500833906,
  309204158009981,
  87952359429526143,
  32789121,
  33247874,
  1620651952090015988146568472802120328,
  30233235,
  217016735769333735485280246157295564884221081441722247022277269437718226351271846283399835,
  1410344847309668260960240322554909341,
  39397454656552313768372223826357445761545322001216393886,
  667484178554227673788843631938366833896132432756845848622092959,
  47238638242341876026989132056599504871044140797072736190118161272977942951423971590425005928544004756128,
  11525862673806474857732209400243758852980020364218198534583233652806305,
  5835149986,
  29623488227510142950771176302849220268806819,
  8478177239690462757007006206957154077780634973663660841239231361388105443917409414809858364072,
  10814374563020922510910737985022835780349652724109063807301101282415273,
  376967842958530235530185539016712082090,
  2346848580175420276134627195318292570744194093739,
  1490367107756,
  383299211711149,
  6915525674548292454205597297169073,
  1648210406775992188790749282529802468093528658610,
  47955545085800159194822423192726197262707980276814001042203930591225889877040440213578994355,
  452293567992510,
  30685311861498678160656615741923905675438638313919566527,
  36828078867382432472481015767896026701518412762857661881521783395011,
  138923138244810312785629440783832355806331566434267510817204949703,
  1489079944314632077198222397006959305,
  6864538365843820204747,
  115718492624081616,
  421826592996710946511778431607819940077625799299794,
  1766771741398,
  1942397842706757664133848,
  1931913129225613317788383,
  46816020046062797531436229745752676235230200918614134754857212713441879339389668,
  1766771741424,
  8303120547809043879635425041797882,
  1829498569141145667732821810810737406,
  125056195009575860085312672511,
  1818271202280152291415513214957610272236496769792,
  731671175715374780094853302053941413869511858764974867347655267928950199045,
  27540315818463348489386496774918,
  80819400841188104,
  4717826829,
  6911906575,
  1760860328720,
  6695768853,
  2905941357183940239485147113917291637460414177495962246171254705293001596917148927940505910924054,
  880156943244203548605086769556395856625359592741474431572855512271919450404296021631446723283800855,
  383839505044249,
  6370719621353037845277,
  27756032615317914086704458322720,
  1284309545808092372620065,
  450105477518115,
  30233382,
  126689950695099057810433463082,
  368954706252590,
  106678458625787677551138408002840795164293031972459321,
  47962033832744230396176658784800979266434274755768748182169930258924375086107500494525649722,
  520852356596738760145104992776825336990767658181746234366710587,
  99249998790218558,
  455279669829083142647206719,
  175408560078846695138826758467348154588634868823001682357498664365370927669614630363616065,
  187414080801940541832608466772834989884290967787333145825369310424199356371779,
  114303402768356165,
  155603795586956921190256273302322020371184299023418367513391855493945836720967,
  6095471432856897101674648173797326545824207688,
  29947698766914605897,
  606359848270382656403374596266917706090066771490598221078506931375358377791791859913546,
  208930867547865352923558904355214145388515008219463268809637799639877182220706113616814997420032021326,
  1632428213585330866572690473923236211698945470466461168915279,
  35247813155627359375962175334175707863012177,
  6262943106910487148403407103611730,
  6168606248069464774494738329285963823464862547,
  2945208885550816928408079953871207437874865873826915278027562655289356481275341919061,
  33782481919223080707812490036717533779042192841866761046,
  607393066356116162827376362901051470736317656985873423594623133474545009534954361901915357480637271,
  13171393307955531695059515662815311571139351277056072959460072953480678382675426259231129031514,
  510225809374154387998206001830308249126841494360924,
  452293797040990,
  33248095,
  9194817689072197108759436689510734223818117984,
  608893612291075289002712997162124545516557925515217851200877310621028930401,
  514651967291758888368327316717738493553817299932002,
  5835150179,
  108977411917247300147489624932,
  149576885167641467291023528806,
  2150110948737589827820436354357208176428078879591,
  801481200390449456070958840233887180754929093640140440381935668234292531146744202351467,
  5835150190,
  22276517100683559984605475263343,
  117472522687973478864979958058703739619639048556241722083190395760,
  46474405101226141085357377443504143792741506655669612012844771975726596485632881,
  6424362072947779942453583248700766536720470899,
  550802007208113586171306114788763325300,
  32032815162647864538058435679093,
  27404363556541377561351855244067288994681147845353986259216254784375,
  31814767811409572947368967689080,
  7741920122,
  8200396779641576959263477941883775,
  1487908383484806918667414701126177381332274467714,
  579710195488550489855756401473410388868,
  468298803098966153023386941277389542277,
  12339322624357990306618548916068472113554657529787090849361731392850895948582835078,
  39207371613960807821270578399873205608141705,
  6652690358695844954841357594968275092411635625811877909387,
  1803037251940835556351613742018220940,
  1490820092813,
  104877854413116309,
  34809970429539633874094562126706473786823576,
  2398619549196041984316278280038186495108145394737924993471386,
  5865624477,
  193125219331378844827353651435238373197877063938548589903336326054570169509939610585224095,
  1813726477846092771109082325784810402,
  30233507,
  1887057773225988702426021,
  23814611071018153143142548879716966100521894,
  5038150009470869656488,
  4720251817,
  343663304790958,
  30233526,
  103286292352399501530366552650253036083364423418532795,
  606696575122907178224115097735355169013475665925055,
  114373789769683905,
  462737650765174854721008020002908945668602455159114904181691330,
  81118471793406706294685389768,
  468658430475201209665583564948814517193,
  28594222522556133946417464839300540947928496784280064233364997428170,
  146714328953153762835847237840027930421705737472854849501192330205903254541259,
  685034347306657444251678396467422407356556586439403644042435604545560560171956305482700,
  7752809820637765523867502189363326758778002207249771770216140678386637,
  12492224555971236895316568805955078524166369399977707768189294071683547148943350264636132528291765747471313,
  127546648347865506903676769236,
  2602634146903773765286307962561579790020458723365313483920342,
  27460879691714707010726328212530458119375466640855815127,
  40862925075861963302195687209703422795470505455572274472626203153368,
  140982072881566790932735620132962638779353,
  1584819192764600839066587,
  112479323802129375,
  459680511078730841805827587395765572474942842176969314833552352,
  2348703848533249712550127051403891120693484559245100502514160820497787479569891471727263299660959240704054243,
  11619848527283104031033333249487313437703793123144188774610968511421449200332713576337915342930733486920676,
  598600685426359742051371983588331294043240431768549,
  123672332528793017087766713318,
  105892584013190120,
  25047741407404774377,
  638120153322647310611526576930630749447625193772010,
  1636261254216491404582966874433804715569756525547,
  360845781562650919883560840269560828908,
  411192389479260299781034989,
  497544185806265826514588654,
  3348964376090212410599875190806248411414540779306765165766038278685109052146129223229902597411823,
  14571371433795261525518685958598541667731802223642756548577901117884533780465738498332681716075913557922800,
  1597982921713,
  2873320147071579092361416770457123198802550773746312682281754791228560370,
  118607077711859721178828846619046458648582671070275835984151466995,
  6697538549,
  2099526023478437594402336713160045102704483735867331912580812734951765569638407689206,
  37221243780418208253980404559867445926493393196710188023,
  684923713495251820003395879638015100932009780531021528188187309415605523846908194935800,
  1765897519507469526167889641169245177,
  1779706975227,
  32789500,
  5095073517854630433789,
  8353944145840184663984153428251649,
  9724636886563850447242998648545752203518039043,
  1485019972256840864194654045224656607424102683652,
  6411700502195227350022,
  3197092011884858659097072728901902454350906898565904054107255151063195883585586543374427932500196730269357064,
  615529345117758505436054016450515833328173113386622129155517328760738894857,
  22676273533904957825432080841609737911161866,
  256433417085376436920908970621738737856957975928909933069632994325008304515028191839429885256059249967116243194892,
  2641695024352959314026641982153045773660506526195661927540864576977972024715754689549,
  14822654008683806809876278729883461917843067040877060539833568935585023718854607261181784211393443546289166,
  1662837595556917727024143,
  10128705873434065060822054966317906607720083643362377487376,
  135083908888275572756039208086241081448596855669771307767221203764913499556038691317240849,
  1493799097362,
  483096191216802665145324563,
  446035831567264727956894351777083380757,
  1490789553174,
  449809592636439,
  197389642577615519284834109253554662771270246546810307261648588271262897886235,
  1641300924711870406874141,
  29212986147373031109692721204913219701068830,
  468181924741944688746473323858557686815,
  7462811205901475009568,
  449840380728353,
  5837706275,
  117601261285704594368041915950452337562662,
  109040997433683363619030193191,
  5539898533459603374215589958931496,
  79263076929786921,
  27309018275732641562692183598313039443716552281814225963,
  27586679498998948526893698298817624026086465788450198572,
  6409419162056041714733,
  381755835307054,
  8666288527309955699695618429277001535074882607,
  1641485368193068031890481,
  8507708466,
  24859710619340189241913674635816626221175860,
  126609858304295749571520517173,
  2218557524315089243013347816808924552944879424568,
  383228272194786086258457633715714806841,
  6412052170107631457339,
  377606614679975621565895740,
  94114811467524713688946041435180423861310,
  31660115338321438713631779607616,
  5183919171,
  30102605143846834736037634571562531872330822,
  5802952665311970737997178247337032,
  116960057774978612169773350174265991311319252325717066,
  457536844682315,
  127309074187484541451085567056,
  4720251987,
  7747556436,
  24171961837428167765,
  4854994006,
  5938893911,
  10163904891921328683049866217771273974387890977603365459032,
  31151193,
  338651543524443,
  1942581585383643450266716,
  1475059316982467008418914,
  97840458731443300,
  30037094,
  46896544822541208313178098648318034784357382748142706970631327004081373926750983848675713719501660574824,
  118418586392193369609485767793,
  32789618,
  40489539034044896924247527433769147182153544185535053782013076657267,
  1664681200882021001581915257160619125,
  30233718,
  5837706359,
  30037112,
  6697538683,
  130093529920875794734052059970488498378553058182867889264083535953439487186044,
  122653149466370213812131363840807691242839964434971459606092894028950807270525,
  1715272438912,
  309620785828994,
  1325250073732,
  1207224784006,
  89718173794194571,
  177169707671223335328175584116451979750001659562961306406382693742625860971558108418575402047008822412,
  1641305111181401880024206,
  7611109393606215226511,
  374914011124880,
  5765713495501672043666,
  1207454225556,
  125134091738492047768433022101,
  4833498262,
  8511902873,
  6412224763667046028442,
  374473827308699,
  382188099032221,
  1490922067107,
  2179503969444,
  6908695718,
  1943716818051193336255655,
  1362996147569163880649896,
  31544489,
  497301081102007517941683370,
  303530062599339,
  459355233987335527537308372696374203564,
  31544493,
  32591243302867513730392725214383,
  8156239025,
  32963802807086509512068374484147,
  1791571481780,
  9623098613928270281333797304554680,
  1917682799803,
  107576685817005759432305693885,
  1166639453375,
  2572351777220264434985969822631933968431113852096,
  117741122443654118348611456037606758644510390248039906671915357522192303215809,
  5183526082,
  1793788613905575959948650190334088388,
  490651497288902,
  321670441963739599412679879,
  552319015731374910523342876753388589089825747507856050866996357095226408680083049829576,
  489140018950824121912284361,
  81163339590882508,
  468780125436566508775188780013392207014879590634701,
  1357390697678,
  24401103,
  4863382736,
  98198982112780326749145107247656494257361,
  30055182211261486290,
  18437332,
  30233813,
  8343349917790774558183868123731159,
  7740282073,
  5827548378,
  30233820,
  8513672413,
  31544542,
  1491611702495,
  155950349257505135935490606624388879797397571440825573,
  2067838686438,
  318454131414247,
  7093661806387326518560088649258216,
  1908991340005449503888617,
  1641521864228264862962922,
  9168413047289098131951581242134897963448947949,
  450336337974510,
  30336876985516595696595179464755977771373810,
  33248499,
  1941934023068031146087674,
  482518385655419413319668988,
  8392037629,
  6908892415,
  1615334757633,
  1757521663238,
  1421159608253874537269833582985696519,
  1323114845449,
  20206863,
  9398844503772253280990967375587663047811726316713327795268358923572496,
  117262232124478737,
  5938894100,
  30233883,
  26821256570666767648,
  18437410,
  8510264611,
  125217643051009292420234237220,
  373248737971382601010730279,
  5835150634,
  1324812096812,
  553126709931865328530438984220844512558,
  97364035049714170716800483451762855138607,
  638103182626257792397600250486023780481008426833201]

def chars2 : List Nat := [
  7739495731,
  1517666653495,
  33248572,
  298195084727614,
  4730869055,
  4865086785,
  86851611388040515,
  99447751971198276,
  39412287354172313729893203717345058161682604958825676151408282010798167581873478,
  1494570587465,
  115714094245107018,
  32789840,
  507375564313941,
  5837837654,
  1207774369116,
  97848819388601697,
  20777807265389958500,
  309127702533477,
  27363457751721697324468010767718,
  141929220846746099185558312295,
  318451992319338,
  115912275700766060,
  6254581101,
  104765887249732974,
  33314165,
  117199804774831478,
  5938828663,
  5747235421060652256585986826917240,
  452206181307771,
  31657950901625665533538458686844,
  5938828670,
  378994197633683256901711158789099378048,
  30233985,
  97799601674016130,
  29837870051864809003458265961859,
  43742969425567576215811560938389364282944544086646243671858444785028,
  22705253357312638731622855300487,
  8512034184,
  411791816937677603391231369,
  2134349995287505036985782295183250826,
  449925994206603,
  382610531046799,
  5623797137,
  7698732436,
  374450250916837122120967003170609059224,
  5634676121,
  1970188199530929567796661677741705348606049711815581970622151736756654358752088315292,
  32781220249037730042671721431743409895658909,
  1615793575327,
  35700753322331755704812123215271,
  450085208675761,
  318727935579571,
  31544757,
  460415054536405957781898873493796145168224658692157485455005111,
  1238445413817,
  380967024179325238689479364947397793211,
  452921415783869,
  1491927389630,
  7747556804,
  1323285370309,
  18437577,
  30234060,
  32789965,
  6257137105,
  5937124818,
  8049238747168405804499,
  1715641538004,
  107732491688826326,
  298191425000924,
  479495944689117,
  439203610777055,
  2066439296481,
  1329871057541723831621091,
  339066460984804,
  452124123944421,
  420292538422758,
  4475999720,
  387688668157418,
  1916599031275,
  1490534684140,
  30037487,
  4640232946,
  4727657971,
  31544821,
  28801662233513907703,
  6869505533,
  30234110,
  81415256520545792,
  4859188737,
  1916595623432,
  39209258912216812526804486295940847528006460931218429449,
  458054400038412,
  108245839555087830571633178779461481485838,
  5835150863,
  1955309597913006654219397510705993240,
  116634653090928155,
  33314334,
  32591091014860817468397054088735,
  7497405987,
  5836461604,
  382191877576231,
  32790060,
  31544877,
  1584825804161989079225905,
  405110428435412811821372978,
  10692133184483298255702489520848052428874139603544896525876,
  2274323241350379769058870,
  16799289,
  102317509271808237116695074363,
  1967655048767,
  8520816204,
  32921165,
  79252197723100750,
  5937124948,
  4863383127,
  5183395416,
  5837706841,
  1607928921972510558344796,
  7700502114,
  373941585139300,
  732390031092697423346964900184031445979962762525035913687238132368473151080,
  28773287457392776809,
  8295533218293676675373448639895146,
  4475999851,
  24143678966586431084,
  18437745,
  348927895184521689628038774,
  450083918796411,
  6998283900,
  490927570572933,
  33248902,
  1639128773647576465692302,
  388236930799247,
  1794782615187,
  99220590763983820159345514147,
  30037679,
  6945108706946538821303,
  7548507007437665228476,
  418892143909778526329181762595127812283988509808330,
  339467746694868,
  5766441712066483541722,
  726465184700579936080849852787788407176217741957891727855116749305535600886272853446084292022523611,
  187943251066716381970854046799876966852905304312150779497301913128313961076446,
  18437855,
  615967926588181100381993777755211272744986302010955015863382872954272896736,
  22632161,
  940194924282580331349850864110870790001489925264727657249007926957464017225500684269519038142043874,
  379396824520420,
  4547106539,
  164968462825709349726321057710061939257270774538998317859349288685,
  601729446503156204765771154295199077393500846905072,
  8511903473,
  8634091334853298094645215408876044658467063131304143443700,
  2179952236277,
  4723791609,
  8524116223154461779442294033781826913069774816228228155867237772109693824800937722,
  248740496263378597890585307979500018209523519495976028824841805626508982355232593662603248499303180984489124714237,
  131679967023501983555540323137634091474416499024978246800979894582989452564222,
  1324359243519,
  29480171027465656067,
  2179046790916,
  12944121003044375778939960127228814489293430226867617687853310666069556817540241158,
  32577640768951954972712069053721232462596832494177834760,
  6908892937,
  30234378,
  1490789553948,
  135853206058285135522253701989406435767020640426418324603679098593698273931006945370134303,
  11144217100001944706661059535017553178925046639991761214581331851826979,
  40367847935292879694030414655218493927144553175873903765231803402802987339503400,
  382760474203945,
  4799944490,
  30234412,
  1493416443507865253758945263232112429,
  30234414,
  7740282671,
  3148837755434773227068723802904132061889346187619583526131775537554853162076832452043768193393991487630384602724953118512,
  450385812543283,
  5802448697,
  199470087725335145263948721026192168646140365630217663631262178789995346498608077261592378,
  115860820266473275,
  2180121188158,
  495185550286262263371880256,
  89168089278487651382923777858,
  27332939638564768244872292972133212917043527156110939975,
  7882260902469963793476412824442698,
  30234444,
  1601824905037,
  30510650951788054240475171832678196107171662,
  34789021168806053462653342564007705832609615,
  8398593493612216251895269616208616814311397200,
  22354834940408905689329635905559020300752721,
  583984805973798857242524561458981605341346817202007,
  214435813675807366997749042646807226348760935249972183883463950195308014884698,
  1924609066013009993846553269145902622988498982747,
  6951950172,
  1814071321698511827938623016524142429,
  116558511992362846,
  7551532118834476046175,
  96676058070121850107063457632,
  32768633816390969507428706215755678530230113,
  88313674973273047346379118436,
  7750781274342099399530260289026336795021591031292922043231552644142950,
  98684578326402920,
  18437993,
  5701684539362414473104815711082346,
  30234475,
  30234477,
  25397092534948812655,
  5801596787,
  33249142,
  20283859317158860663,
  1982636906363,
  30234492,
  1353003936430634541052625901143218050,
  5789800323,
  1942577734383773831944068,
  6908893062,
  2373348497826429851224164464190450290900487198603,
  5835151244,
  135986169668228392156727304963408847787922,
  6908893075,
  6868810099633870690203,
  29638147758538905504,
  4811741089,
  25036723705565829026,
  1830595579934771295017456669562591139,
  6908893092,
  550802082875276342045071967649136924582,
  2020092368807,
  470373436577705,
  89247883520179976015197788075,
  382196687656877,
  23094105071712229294,
  30234548,
  5802448824,
  7638779204610903660482,
  6818225920751533012989132240150516470604752916958175713219,
  22318821233016410373215267084235,
  52527437806305244796929087129530605412820633428038091402826091616494857914407888342226655182,
  7740282831,
  5835151314,
  503636223034982766894536660,
  5835151317,
  31021016,
  5802448857,
  1493798836186,
  30234589,
  2265744979375297758389354738596009951,
  6605780462114824673248,
  33249252,
  30234605,
  30234607,
  30234612,
  30234616,
  1616299309401628591060331044357988045914495014905,
  904254404703422371772499614355732749217427978191571383621757655070618187374995556620282,
  30234621,
  2645569234856098395439679120808079878307572583354918794947169209957763064387016939522,
  7852529682828229304875204456916691558488889350,
  4720252935,
  5835151371,
  115280856839968785,
  382148812232725,
  30234649,
  5801596958,
  30234656,
  1498497410335697473779543732289165345,
  1488006090947234398399039005437548580,
  6168975954881429347647613124748340989128890410,
  87082077206991808374851131440,
  547084372821601528251051501282118621237,
  5835151428,
  2124303540211848299940465484877813836,
  385212861995085,
  187939046003041609161239760356366602195357962035877969,
  2538286120550091091021478928777223993767826236922999205877844,
  1483053146847917690258370930079783000,
  40792426707146095363452637508893124563938045506337984799449006376560353904711774,
  30234725,
  366946418084189202107710427997108721771,
  452304546977900,
  4720253054,
  1981479082112,
  32790657,
  102281802924015734803754471129739761003529571663435907,
  27984135093780830341,
  383513121216649,
  381639869487250,
  423499323306414472808716435,
  1634874697494232264490188982454491078600846563481,
  30234778,
  37208037078700563436928475666207248288127077064065177758,
  315129708763295,
  107479281759499207286748601201570704596964565562513576,
  8302941328976421716618006691600553,
  33249468,
  28605502838439310755033659471157467089581105159944324161092261075137,
  5180840133,
  411585222256721555378297041,
  457800989366485,
  88706888541587435062568769764,
  728048914575501995072133272848926767447654115157285402178629682457382312171,
  1228781541612,
  701185250936517978717182676416654413276561199138053962348124398,
  561115354073116471268311813345518204818334321280064668095378827592513470822035941316848,
  552050840347308555803544791037748271347,
  501172729376907387196758262,
  29299106750014052601,
  149620822135699502838599036083916484046031919069485117484799489826610760293885523722324289791242557700,
  44974525660188158048281458361187448660649034787641988134133340330247,
  16373275471205513172201499218116888030830552337021889851862382662520373217731152587231973366029,
  1905640146986421001994712888133061812329022009845879040802814696262162703,
  309093157525780,
  1547852788283857010303625626397951729473780734229,
  4096452413976114111351892704296112748571164564867321154025931415414676975519049861932928149451307109039298838,
  4548286745,
  10207777219750154117892563745077439320492796099172542808674054234699651144853165153884507947109062604234674860052601114,
  509238913837335720738243930864878782336647110439693478997829621275880544540,
  420199030332281790437546271,
  339041158256932,
  30234917,
  1220953913005170675414819787178896271985805436592954514327107182044909793277236003299231711488511750010685851869421158682278990835183958115504183591,
  184084388683273743607067745802281422037135749021471181927002889973551675018064796416778247189250763176045685658503409697380649,
  9147197930936010776856206741336677198213606554747508435201635404815500166951426346,
  444092769449458921498585164642389547267456355527885443294648619,
  1211791662525835128363309,
  30518060007804701500309325864170067792058670,
  7553433945205594741039,
  7063690094787359060579927499105181722789374708726357055793,
  13784945572485236036919733854714256958341981550910070678872586415672282292787231635981059897531619704658228,
  39254666901239325725778659608797392064370999,
  24062093689507357705950924596248925623834936,
  30686706463253620706580099649166800315504953,
  6379513267613914512672996123812720218155014458,
  30234940,
  5801597249,
  452240121616706,
  7453943347986002041156,
  3409992785786177583906285116811696412898553230548106902829927697517546826978609617223,
  8568597157719948053716993935610001936592386586083750009160,
  94121384847604057408730670846782234450249,
  9224866495877421869959010464933049545102936065196550281547,
  423863624345186474657536334,
  26589487394123017117887364356431,
  33582549938549229475938260650378466250766005525798279505,
  7852399189534247352023090874790123633884027220,
  420282134124885,
  29409611482149094500731071403245805034363222,
  167307986906029621385418418650574221995221202807401222240883595607,
  1982586378584,
  115786494791866714,
  6942576769993966639456,
  333966797283759424616290658,
  436040872852515754886008906650075959552267872603610562329401701,
  2873670863188597556753566038142977134551307929847903116592677285596322163,
  1480121376395142817477892950365657460,
  1487437452228126355182633495823997302,
  32075831030309961248288074717560,
  4947597689,
  216880256850445313677899326675548090840789572284774829433713014167251672874294467499153789,
  22632833,
  8548003883249560630140340212409165486393736505295307561980520545879767206593845634,
  1663981314589276430227843,
  125099716295886316858686855556,
  553728694921171477140896199869874854278,
  9535363752359143698657906026193406340351220103,
  5782115652297096865865235212884360,
  300407917402506,
  5188146941657010100621,
  5766413342348250732946,
  1599222667667,
  22599444759348653199735398160790,
  1492967578007,
  103362654419574692974588582477214567235348730822547865,
  7590013659125498075550,
  7739496867,
  452978814966180,
  24957108451698706869377007377989806722144677,
  81177249301420456,
  1765483239849,
  7740152234,
  1490820094379,
  426286170337949534236793262,
  18438575,
  1766771743154,
  29515285570893994425,
  118801520512270612672774887937090409552315,
  368836118927806,
  6319789146119915578743477865990249344925391302,
  97840711559895498,
  139978145408609497233609490370881596535945880742910630667125807563,
  1654296630465693363034576,
  8910897025842165228207723631617757176198158801,
  5835151826,
  500228791886004989194345586481121810899,
  615970619975847892766556122911186888917866303094600193145323391643108858324,
  115787213984192983,
  5169043928,
  6939010016062393255765055916169690,
  327751678606631951723616732]

def chars3 : List Nat := [
  1766771743197,
  4718483939,
  1353522666642697860372965,
  6282943509963076098536,
  108044257002423661371250661868,
  17783289,
  7685054881384642468347,
  7151578161508832767782289887812095,
  40337748594966561641335440245694442233443904898877510169385401259953777634990593,
  32909435923113319438976217143811,
  527523036308295840708647428,
  452302928042501,
  1443029342726,
  7138045566682040864248726329831377521759771143,
  1982582053384,
  7486724617,
  382197764413964,
  113738010100390417,
  496997699528577577395706387,
  32770309069793922326386301295128,
  7111420386288159344695922199845404,
  29714006355814144543,
  507393133009440,
  5835151907,
  97699943021107749,
  1760776444457,
  497592717224068245779667505,
  115786910858304050,
  6895458868,
  6277610648061122730550,
  7550805028289216338492,
  4546648640,
  490083057973746127380213185738129351223822180244038,
  1460300156547801897984561640697256521,
  18438730,
  309632704404053,
  2866640930232079696590805830656952091202142100058,
  1714117237346,
  1768676874855,
  439100196805226,
  22823165919453960519100223019636,
  1766726392437,
  452557903846006,
  422814695293583206309911159,
  4716386938,
  97759180216687231,
  27508458207876676021974216563346,
  24402370236074068843959213382298,
  384396821224091,
  1766771743402,
  20208306,
  7459085715809660132019,
  30235317,
  1484377643704,
  6244555454,
  495151028842628729823058625,
  29658837814380944066,
  27134033891834485449,
  127216904213380280977433320140,
  1491863296722,
  115714088916179668,
  87983028717247190,
  4727855832,
  30235356,
  30235360,
  1322918697697,
  5102487900115871488739,
  1765568764646,
  29645944450168692545119522923987200276191977,
  30235371,
  1766771743473,
  377304383369181224240438025,
  30235414,
  1341979384599,
  30235442,
  382196721212212,
  452291615873847,
  1207764081472,
  190350892816762245796823356542936547078355254790478380561732090912793971995851334754015641573866953552,
  4548287313,
  22633299,
  171384857504129189519662271517833579936828452767197344521762069332,
  36291576951896010684942826489529650348579669,
  117698772728448365241344903513890933050416976358224359068465191767,
  111528129390266537774547764047864660124318494619895732080072743768,
  2359872224742940061089139791602993954547365010265,
  128163763713844632204028369754,
  5835152219,
  568396059279683440366002651045069609820,
  10156645665500243114582605924931227624896043644618479917917,
  130621796536840007954364817098717275325760910374165343,
  115299601146796898,
  8881295860959391127445319770538519771548428949846613325548960287755093706347731811,
  6694091800517685101664830559810121382292702370081085086564,
  5835152229,
  9765088139089024997211188862174670595702130555202212417655327379391685053539291790043665488742,
  2060641670707074169396073,
  4714683242,
  18439020,
  339285587155824,
  16800625,
  20208499,
  20759685718772833141,
  5010244835595167292282,
  5001413765893684616061,
  137487686127564757691575670114297475842176677893608352714925692727749016882987220833360769,
  112406810981718915,
  5804612484,
  22669270753265107701777426897797,
  130804939548857023502617443008144912501429069722246023,
  2762601802632840395272275235289119190506541979066677031361416,
  13578373067389786107886118060610924972809262707033107520165825916188348999015146098051943715020906869178043069889797001,
  6168821520531835141620145208793092607587343243,
  456173229672365734655669996974826586382669932944268,
  495515137382567168150216049584864628032301836905513890499615631,
  452290588400531,
  29623926920504499093,
  560216253107419564391587924000172251756107247078383321205005207,
  42253524133323366538190784715351403430855285634819836413282400951192,
  1967378499658722110430105,
  143532767833648640035440815243243224558015946275883403503111236007111194983378855459576730,
  87323101624013363510897412358487242660763,
  566224107564307514062745253344657940118793221346970822793124764,
  125095174415236700962020715506997955025226135323926964660297828691690718452637,
  9354256376616125103559060604396043087169987955742302041239415309908639458256870741528005598110,
  1433385245043262629882746985235372960,
  102278992314642234993955409594504527131649042753543073,
  11164853766460984877440441502427016263567968610788266664001654130039714,
  2359632060236761936169261772253007672852285250467,
  36181651663227502455394809603802657539578788,
  381914746543013,
  1455957364077045281807270,
  603774931789560905113823020670237661124032686807978,
  667777027064426281244232623677624954009963636947821362121628587,
  1498589567230859582194612693315967920,
  27653979077396883710624549034585700115387661279806380979,
  27696546871620110599236278115252,
  127216721132525854675961469877,
  63622799660658965045431984014674470805066378206921799010866936294221371191741173682543955219754072472448572205915062,
  458066002402232,
  12352238977147530322878541190629834625292354403362623112480946214026306349470145465,
  2605789959086379686276843413167701581714271197926749418576829,
  29079492894843336580106359167699894033585946817649293987216738900926,
  8908483005499391138631304835987627929228630975,
  546419659577671894897708153807608765378,
  5808016080349017710531144792169412,
  28767578960969653720089955359685,
  11495511044160169275884356280761611860594535589551696248337517894760303966644527658972892191686,
  87138540084783992454063414215,
  205574618608077455251819634722624368690301868820441075299158818830743414068728035350174668,
  368837026798544,
  2871990839158937221367439660402886212967507846574511161008335148186950610,
  30768877646145835300807719345107,
  83981126668343178956446981085,
  129860854375013342,
  113630390394115949440444479376497033020184930440948537226811431903,
  34960715742688850988429502590256478340864993,
  20208612,
  1940897297945759215148005,
  452771401894749982386753564821795003368,
  1500534103022,
  29641659590001646576,
  7475319159600380362034630587537387107816922104,
  741443027777937097727233471621334084234148211190617802703572625020627868163173699191074929187642361,
  1483016603027233602361872854646676474,
  114034600713910907367872330482899771218939,
  97512146382688359582591827215311670460417462844873724,
  7664452912653846774707557794745002783870326093182823652351,
  12339281464070968903184195323509749925974969842176540918618515845622954552717433857,
  30027217106800908794748033892219507020169020527983993540539537710084,
  154938196596267807019533381001055045708506917723659270,
  5185740682065455176713,
  106754043078850024840725101761182517675843934097792010,
  4197392039191225721295282913620159427030886515764001654331962540204366748116208020292183019177748660913300304157291928591,
  3723322508075890450536522700678988256374049444549976982788666947174055847519660638732630737574929,
  34056648580100763834832604549858880865019867742858762494454840961175025341914132,
  1780802804757,
  665864389413900466449814125975714546570253483637743799735704598,
  36289184894682002907382937445208657338391576,
  9034956273862644951861648625347025380118562916492777083766221316774938,
  33250332,
  5498163479754519843172566762282013,
  154752661510177113206920314398435988210175983841926180,
  20208677,
  27699313789996920677439777758247,
  355485773487148,
  7067161301970375813036274584453606889989054741267750542385,
  1114795695156,
  2160646139289230261935715834203298872,
  1341712444713090611371065,
  2367105983823499274817429688022308497008006618170,
  30235707,
  32572107178474195906686139337331077599670730893555358780,
  95881074746593483958563546287152311585193856871062589,
  30379353108950381101627696608023584857112720768707015094281931676734,
  21673655491603676621967657098303,
  30395176158570564617757951854568540746482152084012627617202805759040,
  34587920878864122340181949373505,
  37077307519661144346832424645650763575145667667555557637168616438564732114918466,
  37588725367608258587644858854344742247661208890764903356403096992303692767648837,
  7595581587600458945313800418947855371876981832,
  457506431786057,
  26009928469614613563386856380258253448567882,
  6391891071714406152799906055877489592005909579,
  115151137477844046,
  6167931085247802574333609545303628137887259727,
  7740152912,
  405294167662170133000445009,
  197265062637164185359831692621581420180543747277049268598540871366294145358933,
  30235737,
  116852195771961898451570080227924155422070283191999582,
  24945970799082282577943611873109417634847840,
  29116914288604699745,
  1461795511395,
  92420304652897320828043576639993198959717,
  30235750,
  1622914312267311089422626415688572015,
  212017776325300872091109117554974315623660001864123363188354542108802378648494196397792369,
  4862202002212218690681,
  6908894330,
  29660247944506989695,
  34014444085329546730945954989050625749119282107416730753,
  498198362647576817026161794,
  30235784,
  490650874109068,
  30235789,
  7602174576587073019024,
  5275776857746708323473,
  1803647870275096636389316136384355476,
  2179951778966,
  1944604472277721163889978375179072461314396347543,
  384961364057240,
  6908894361,
  6370854690879964929178,
  154730806011357384759539690459749620475839219995925659,
  30235804,
  381657702816930,
  4811742371,
  154380413579373346940625251354452519020993762849021097,
  81235608953773227,
  18439340,
  155589205358996299970133110975820016913635713203723437,
  7643769398064540572849,
  25115348744710379772217352884034385550728371,
  5835152565,
  81235611878317239,
  559818576377602300904543651481663061705242610359589340907658424,
  5835152573,
  4413414591,
  452283071290561,
  1229900831940,
  97759041244847307,
  381936926022866,
  29642303915213216985,
  2464162797408352718435668650886782177,
  1768676875492,
  19568030272379051237,
  29154997285896674534,
  25192589967721651432,
  6440029981703991549162,
  127300485287447474616825109741,
  2136473357079703911673376970524218266564047691764377639804144,
  468711744794306706937926515078650158331,
  4811742466,
  97842647612087555,
  7736286470,
  2572245317515108641106949006269669376773196700935,
  6412215314998783663374,
  97703272640109844,
  2152721730136068203912657714647031062,
  5372140827,
  30235934,
  4560084260,
  4730871078,
  103745912927032324614656384297,
  6404802864050642115885,
  1788296912174,
  452291714112820,
  1484332293437,
  97842382335860039,
  1224582454602,
  115786929622834507,
  1473970465688212420713804,
  29656010012248399192,
  1767895817563,
  1491944168797,
  1347573394719295972203881,
  5804612971,
  1779656645996,
  5351628143,
  30236020,
  381871343885698,
  1716179066265,
  30236061,
  1779656646071,
  382468332543429,
  27579774925930308191005200571853,
  641747530342073483789427387932219526577449190805744344429911517,
  34785371109283021655858191696643438157913566,
  135932652405895611562501990169612813688289,
  2216864082758658494194074405194566904870749167074,
  745685777533097161574408468491449904466406535134916546007617879276845645088079593831340267806481893,
  1771137069401548483204652846384219702435909886074075917966100177880505830,
  29908025711590729290817158655114511037007424348709543399,
  26484981363902595297798376651700501221334061043188522472,
  1942591588097261172973033,
  5503791837619784548290044343442923,
  106631344830367296637611491350749128377082932423646702,
  1493794643439,
  6423974096512247818482805862045377862862003697,
  10208855835243945187711749018400653526816829002107897470450,
  5526428848413115637235,
  2657607275750279103731902280543027590130632219734862511107510053822264230536350249994073206054388,
  36115054695468061004881885111282223550193143,
  314853781495293,
  1433729236997791256489569567186181630,
  96506441079595677225759430132444406832641,
  9227465860399275698217387442400068861091392443031157105149041378223183843897244780056232418818,
  12333133457332284781448643321996596487410720156635472697007293713467991177280380419,
  2463115320133599676751685896204017157,
  26966233392067926303579666341382,
  8865518850125457390459295545790191103569323318962366259751969758830167129157361160,
  9921286044722520435245552070504572344241806511902607826444,
  18439695,
  494603239472319961988554256,
  5801598481,
  1440320675348,
  468376986876028445543232481579666988565,
  2443492773904782134058687496653594134,
  109079390147412746792483773976,
  452284029034009,
  439365932768794,
  6188061602102629785115,
  1942579700904027661884956,
  38246957940038841376885110892703075287605287727631261213,
  41242564061042377514949486093633062168039878746824327001355821800998,
  29676007221037850151,
  6966496727254959108749320123303592812191372916933990637101,
  2685379218061799703571907200265562008209325317678,
  7588050723230000438839,
  38022206411435333486126127888658482460110949166587956939306589623390315637099559000710982246537171000888,
  5835152955,
  1736317034044,
  32856354422268370371662176673341,
  379722787282498,
  450085952380484,
  547082769733271208200489368409024847429,
  1779695181388,
  4720254548,
  35198661295426048653617226682289188329053781,
  22634075,
  30236254,
  25009785086569766497,
  7053267193139273358946,
  743896090224926682544897508098123906090292402026817910441118416587815358124550445904221696756571762,
  2869906935622168696134807834355379935234493447779177011900521725078380797063615849916807759614705522688514923873813159539,
  248949874752916204578210133033587773861055703097535025197288245220200849026462429240037605362229702581859097817961974772162164,
  129834789947212171178760559265455226895686024072420982,
  2536699398551224712763291992032574676700559783122667638382200,
  112406765699292794,
  2378399592467452801917821228782327586192849723003,
  436393247778190291453339163407988649804830309131010137516498556,
  2127246064241116383529014250058672566876293914237,
  13081637838085150791148361145077300315534327251842358009353834106779243848277339775735267483263,
  30236288,
  29104586684304174099871259084253174528601676477910653221595237801604,
  7739622505035701398445754262560961542059680238342681615193452788473478,
  503637343511937547247181447,
  2443627290326535670343233866963705482,
  30236299,
  2377003330631144006270156263440893944946939747983,
  382257208199954526464268737180507987600,
  5802450577,
  1808568829853644146052389757319853217005350773339540130717331,
  732555673826697807987817840813838635639383513957018918662906082385078804116,
  44318843702107801128173302041177829599016427319300960799537256229138049469800085,
  76311713239686806,
  118965409841953930348582516346997930811031,
  126771232183828937986151112345,
  379612077733297517541064860701803896474,
  10201953508236132389363678524657643925096147065402834902684,
  96849047674051222452033759187477840551582,
  1562072602509633636155759360747646693933961207455,
  1208425995936,
  1766771744421,
  788880804945525828335283658592121411204882835463344738007347917150133762427772498173606,
  27161614970317844101076043471090272942059586732187606695,
  662567230956626633449870522254920642840168152298127886810439341,
  30236339,
  20274813380563984053,
  7592637849965715611318,
  186882055646201991439926449945059630494444518019613559892652272008174013275831,
  9175763617789937016020782796089329746572238520,
  1219164855993,
  97842923501739710,
  39778682596717356105946068829755935993769233631326396105,
  25245805232541753034,
  7740284625,
  30236370,
  7641005424942650056403]

def chars4 : List Nat := [
  1348795596225344702209750,
  7740153563,
  30236392,
  452291627671274,
  7861354253081731251535412427561413708766206595021795516150,
  466699814142875083951742846548903026423,
  13927795386184084377890640421563855291669940498687456037447349592763132225556813747780029013754,
  376680813584127,
  708353883020409314470822717050987005839072130675344679588832729714074667770517852774204971085339648873060392704,
  1483303902977,
  1971325281524712501407198194023271736747742066372891816057168040583323394,
  2098094775345209832128946975806873347,
  2098308969301550331797374719923347204,
  7588176261510356819720,
  1608435635668582888267530,
  7643516357934856232715,
  641680641252257559557367649623202183177734473577054396573376271,
  5183528721,
  6386224932786560901713548099227672019620618003,
  514633038280340342543444030816892492742627398278933,
  607986891743277471730093418727535677008264923143959,
  127546812368358696650947649304,
  405388532013185669772893979,
  8206735112370371015564539368922911,
  48241026704243952492038595175891530538580925651506665931398532462246483363323680,
  1987389283997347848880651206383639670364122144549,
  32587242373175986994112036953894,
  7452818040762257727271,
  24903035779867631401,
  30236458,
  6255501101,
  374665710092905877611093126124792611691101938802479,
  155871440956361368785667634945024453941347410763603761,
  493357169951817026495501317181000552389397240700729,
  2279968319215844556061451629637133101299272694678919413034599821031126927913294629323809400053562,
  1342854906962979793362748,
  31022912,
  605207563643833146193175627424265605626998528446381692789481298,
  913238774642664544559708193694501754791028885008311538788432996396518329618128936646739998934785875,
  1916073455692837973482015436790148857579888205653,
  30236502,
  1767800135511,
  5835153240,
  1303836523331042059312989,
  131898604665497895569135882990819085510058196953686662873045622626,
  309780931174244,
  1651063802754584724463462,
  7320112792946761119663346953174023356546286267715349104908200115265385,
  1229516133012941215326058,
  20630814366521843564,
  5194544145683022999343961650978669,
  105302999979609405001632604016,
  7378139709787163329547401957698663294553750009650376792956900946239345,
  4730871667,
  20209527,
  2007387476829382360225779915007197449790198210425,
  2548288738393377125375683676583429614878744207227,
  30282435062669188889325739108988108004548476,
  380878627134439089186731450342726992935653698854784,
  7069819709937646126055690392397052426287583796662090948481,
  30236546,
  25098758973770988054972749804334306242944900,
  2376815196631120313617668610774538555148509405061,
  77844389047984007,
  1941364607337569108582280,
  8513675145,
  2181683240842,
  439701935242942605787126479677475795018364616397296806724722571,
  5836070796,
  27632293667206494980010102656645579989004235078354296720,
  31256068739005109071702933301388518981278507862196838290,
  1769450266517,
  39736933712104744816311537624657735093895087399503302378505042086480428357349242342998957975,
  20209560,
  439204865007513,
  20209564,
  2160304175391273582647561260123971489,
  8513675176,
  567248854722241369865509759966073259468765970063274,
  1187895664557,
  191723285456560416911881279048111172689823362353753242501795244028308289404742708802617995977228378030,
  1768676876213,
  35228443892472045543017287576005041409085626642582642754709005351299362703331130036335828919,
  30236604,
  548439542447219021609772062229458214845,
  264757082325420783827392816774185862477404244007689249078658523983325893821345894708130854841560892568875017265091,
  27309699421849215998912827681531521255938789392918208453,
  141884586241660359873354237029128447745990,
  1461472730653285183884047711162621900,
  9192796405669003249561099344583161565746061261,
  409126642671567,
  4295974864,
  2178631557073,
  125676771533610962,
  5175009238,
  685760007134628886265910149279511048282440398883447889100132888403504619479,
  30234881144030496692968488990950587490394072,
  2458100780166218422283741541286601436043716528520290224070617,
  1766774431709,
  6954116945443329662067220437873691342615676811423361228768,
  557837051715553,
  104879202423168996,
  1481942470180785720606004137845338288372856414183,
  2178627362794,
  8478183017417093708509355152161903302074092106445312471295543818588613533358907371,
  5835153389,
  30236654,
  29637978435998015473,
  2606946939310143835033335727333397080062884648055356052299765,
  4546650104,
  29875572728290762747,
  396433043214757440798724851040242039163040519643133,
  1717136482302,
  309577199411199,
  48240292774931028174169999779465972625205308515789210414051141737763190368133120,
  36291540411810472458057981679967058074886145,
  1491242213378,
  5183397892,
  110073238637273093,
  1390717984774,
  30236682,
  30236685,
  29621307885708795918,
  125695135248703503,
  598074332982976924560102103681162572976024590770194,
  7060372821234031026196,
  1750315247523702937608419478496108565,
  6412212852471688618006,
  4560085017,
  5835153435,
  135932943371884301356216439815342166138908,
  730347014133565655678433629284401565349494942279389957829922864863039283229,
  6411684745258381500448,
  1490799987510769511544883296010133537,
  2864699916277906436380764024238467751278694290011319593104159785354551333,
  135457719978123302,
  7308322395389461283018255051800981687674673981263054289482795978416167,
  115899672446905949578080113428864418734120,
  1717907251241,
  460379622030259633264514370588196879655743201236460802588041258,
  30236715,
  138093497063153500053695389743,
  1165898440757,
  615250411875126675091434304676320982487339848959115034936624345968715325499,
  6254583868,
  5835153471,
  5063401537,
  1768676876354,
  24164925334403571779,
  171709177145285331673235409212275887988811,
  8341169114142870946056520273911885,
  140052946554148118946282883020025435218000,
  143409675335268572020714120449529789196821526703461584673164582994,
  1775989927039436062089301,
  97136717652254809,
  5835153498,
  6896380530454945257533696613048418,
  298582704349283,
  309480738021476,
  30236775,
  7595634481227511677443619358419373041504247912,
  715119234171909341464288944112127439844917189226501101333755978973080936553,
  1186957910122,
  20471915,
  23076038836823810156,
  508925575098254691225034338088830139516076475572333,
  13556890559361103833041853911120476311215034396336208963165449897992303,
  24836314547985625745313359610513592292958320,
  7085386838910768013427,
  165070099413972630104808478103821413190036760476908794179932414070,
  1326293475448,
  1916603883641,
  80392561341718650,
  29630378559679717499,
  454953068521332850806513788,
  80109712206159997,
  452294339747967,
  30236803,
  107579404894764173473710825604,
  32810387127819303420810547716233,
  1766771744908,
  4999089908274123792525,
  1641755336850,
  462048065880589042282431907429765898388,
  4726135912693522391190,
  97742189111500954,
  7739498651,
  7740285085,
  7818672919152950668694055132313473423580094623,
  30105999379555374141734076866818825735135392,
  452355916279132973740310411683563135139,
  6563400287936417419556360994971814,
  25045687571738681512,
  5834432683,
  415524596041560702897885069119891726508,
  7734321325,
  7588209445331054911663,
  1103648219313,
  33291541035490065024919715345193809725338450332355682482,
  1463732428980,
  379573362778296,
  1680523878587,
  1475593797283351946158268,
  10818007991363050898128747608667082246839588244180658377709313131634885,
  16801990,
  2338437605683421688452014366905391290347599978698,
  6241149131,
  361030589580918117435883922642789753041,
  7371442149947751030997,
  1164980543704,
  23201277261167747290,
  106168721870943921386812914202197301158108,
  8506073309,
  2562155630415591600832025888903618783,
  170460714595686042755846616523116017080777017906602758444099854560,
  1494450725094,
  79415665543798978137458696423,
  461656224975430243440008659350075760872,
  126603621013124296652029714665,
  29471781998132748523,
  16802028,
  25026379718781329645,
  2158024941806,
  8198574608872825283420645332967663,
  81087061659574512,
  2013189634048010542302573398556709439443024100413778360033523,
  125676646766174452,
  539490199369282573765206262,
  2098998313705417472386298972499894521,
  384439878600404354796052730,
  33251584,
  115906495687420429454324760431847961551105,
  1324356559110,
  548438071729881074761602435243957510408,
  5368733961,
  6908895501,
  1389687038222,
  753887395211307418052215844219127011574844084787846666797144062008650319851809754669327,
  1598801600789,
  115886417537291508794456760700331875852570,
  43859433159524791063302642790651370953499695008261873061692966199583,
  4717830432,
  6184162510776430780707,
  120878253368556906524845646517175573920939646093910308,
  5382168870,
  32807074939416010321248412485900952190083367,
  452291627671851,
  474371809170599624426902933760082348580610742968639,
  9263226014209892908311737314462282119431348552,
  5835153738,
  7706667561339031737760930767961389821998424396,
  2563679447741374865678199316790998988419871301966,
  22236936962900779345,
  1998718280516165153217716362210996728186162340181,
  30237021,
  660721616917279355439768810127170987981695242024564377065578850,
  98027909146074774574797685864932608532839,
  7749561726920518287090293844405192212292329832,
  6557524746291621335177855354823024,
  4308427125,
  1942448748724079313314167,
  1185426989451,
  1944477025681329628668302,
  6778020244,
  30237085,
  1462775341479,
  35671972111897872008381829112232,
  97803985787052457,
  5175009708,
  1492313268663,
  1606079774315769778692542,
  8302754459045764093735522499060162,
  411585221752150321740014024,
  5237924298,
  81092948343480779,
  1485207265745,
  2135749116694988822600934814679851474,
  5835153876,
  29615698912286499302,
  6405541407467649655285,
  309630027522559,
  146084065926391554225075335787973597536828879986577090966789513736,
  23719041923397665792660646355466,
  33251851,
  21587610777773433356,
  127390980222194159418772709901,
  1435434085246336288469872765199671822,
  33295942174479378854337278003116700670940931596911993359,
  16355569263899494318181920055559581834466155347179851211174590018765929667275483268976579439858616327871488633620161040,
  1995902345928356215224841050685558827506842624529,
  507323769419279442157038506655851143094713015951890,
  5237924373,
  87028584373040154370017485334,
  5384725015,
  11905055588138511859091406062129854395228222226490361157169897954779281433667658264,
  1459610015820103531784481439672263194,
  1756895273499,
  7591938455382838108703,
  452291009602081,
  31154722,
  30237220,
  32793125,
  9185421812526671928496894864139650234026582570,
  1768676876844,
  438771584885294,
  7594614860189682393651,
  590621350118549794069565905151637822312397690659380,
  479459610880378159168153871979832996283315305106720945125708605923348013623,
  32793149,
  1641764708926,
  42559174353014336880853407013785454356737413505233176180761885762111,
  153951780357540228615880240250324882569317835903556640816359987060328224350784,
  32463308249640776619245439050305,
  30237251,
  6380852911542722648861511385675826697565594183,
  127308495864698637445188248136,
  4720255561,
  9333762682808891725879744838962273147196234990622210966630489968068886324134210386110973567563,
  169739450627856512943161418076667266431006757564049441955798016589,
  436234261553415963700340043895937804682011454727904751210750542,
  5722534199876623758356066885368594263245611601,
  1475026704749331653878354,
  187310577358796889606007445332324858558946765494125848015122477457783473332819,
  5183398484,
  7362205161903222670991625241642740956164783832132125533051331382895192,
  1186299404891,
  546606484341664607070235749482249871971,
  4717830758,
  155112274847827848262545438633171271880421171424158311,
  29799697558661098078175841509993,
  6695117418,
  32760132750339044523785694192856534097355371,
  44318688392000602074049650042462943874656798746503289598764415002514675968795244,
  383589024313303306529576438451697640045,
  29118392776011309678,
  1476021943414649833939567,
  2136941627674221202850417639303701104,
  141961468570788467,
  2536724555837915719878566876120270122215554761181577293881974,
  101418885640921929767524254047136946647631953688683129,
  5756825747084966912636,
  1303974127648683802780286,
  2875993236095176022664135687147972768614550718291499148562873930512360063,
  107247775286056074116370150755419104092753643559243086347372159616,
  29807230373871135664208872759940,
  2157016539785,
  6646850565789138520190720097296229550778327057833188811402,
  35247930281066570521550696942831441330594449,
  25044506773632082578,
  24743660351409128386415939576467,
  2360192226233207311078740238077553260987167562090370077057685,
  32569074772599162700010813153942,
  2037719320393634903224504945223813587612867904731184998146711,
  111534547730069216252029089042924189108561170887222083353727754904,
  8911858779760269068105647351466711655447421594,
  19892179760032539291,
  5837709983,
  113738104177975968,
  5837709985,
  106374285248769327953104330261946751541922,
  2371001346112976301680621014261943954203213062820,
  171184486776860203093893821959212026944262673453093120740131693221,
  20210344,
  1493401038970661207091732525910090411,
  1934186373955107907986092,
  24837322305097559035795944357777479098983089,
  100282028688711457621864112821,
  135114816506363505647772000953,
  32793275,
  24746841614551994722808447132348,
  22915693419883225855955053709289816153416381,
  1208428552895,
  123595098324621366438030238402,
  5183398596,
  30973806777035549534939754519105560336687813,
  546785557189729057430418615435183547078,
  4724449991,
  438770452423368,
  9174180517636243035806552014870756016472041222604719245400123842260179861697819894654941491001257769591497,
  30237386,
  503336170357626377942098636,
  35844195685554091209697107393712142052254413,
  1490789098190,
  533458234437490880192386189343596307152,
  127237725031422068562471445202,
  516240233227629643880574174542613996243,
  30672235372806430540499586763205363591897812,
  8608609759960803803186074864063166221405074522014959821526,
  7581626578812073435863,
  377941930385111736313471704,
  482909664272623933721699033,
  20210394,
  735842374609902270563032231749234007301943239910125927569883717802866795227,
  2614226972072736881692643405622715495058305202361360109036252,
  415653841966611800437282510953159877343,
  6936494912267160412898,
  1943724109197251561415395,
  114872177816779629627676974911835348427493,
  107507620340684566456299709158,
  97834631427285735]

def chars5 : List Nat := [
  5842683156201298775924264714658536,
  6425258297600932604557418852431349474026349289,
  482798815876564698493379308,
  338715968168685,
  1323269382894,
  452957371130607,
  530383375872517022737640637377828643569,
  537803594083197683576186928681149096691,
  22218960769828283124,
  6254584566,
  20803314259645063927,
  546480672116001705159725935209789809404,
  1491778953981,
  2134558049950870918639538741213160190,
  2185145073680012409774016710656215207736388688815621150106367,
  590562614569446389080359000765855560553806356046593,
  33720547246093542412780584843308645987738365163438629634,
  547112987126040523287767079645600126225921035091267203341312775,
  1715651568392,
  114191342541544413717369190352883326018313,
  4730413838,
  5719997287202706985390240135257433063149822737,
  494545704409441917778289430,
  18490472861291012890,
  97236636227101467,
  116986529584145181,
  115744007660004126,
  105851583022261023,
  411179089374411188967072544,
  83938862765372619708179964705,
  30237474,
  97829549394649891,
  1655013573994178673045811197904184100,
  6971820941964822332544539778256889939724886821,
  30323985050034169779888858620712,
  32052621550642622913435798496042,
  5097376496052262429483,
  2602548108466805282881627785006808520186911390022908159222575,
  8513676082,
  1326290920249,
  8906020276911912205345362139007282330762437434,
  30019745082802201405,
  1766119990082,
  30237507,
  1186299405125,
  568651306587170192162579270,
  1956094187107621725823817,
  1714580382539,
  96429760004383564,
  4717830989,
  1130464830286,
  21480915160337627278569182094159,
  103818436582679715745191191376,
  32045354809843562291870152549205,
  22667099296001452922925038723934,
  2281349537032164879544408854428424235189966299999,
  303964313903969,
  1944298450308766223834449566762733923520002417506,
  28801673507045139299,
  455289109479116575719318375,
  1760088580969,
  26174317,
  2350421825080878903382724313118167758144525656942,
  438770452423542,
  9391867463346636673578130874260872262052878073065150297270938912056183,
  410069947605882,
  115180822766838651,
  1168033211264,
  298741633672066,
  7741924231,
  2371115942220083996250290170791803814932924425096,
  5097035589287360619401,
  30237578,
  103386714768571438914154699839225107361976007643128716,
  7735305102,
  1494450725775,
  444268010562448,
  1771125699813382542138834428710182434557751623191669596654564739028116370,
  27138161889739301782,
  503482473998165037584507800,
  1407194178875716062683441578638599072,
  6669676146648489982687163123673447103317959586,
  26821350648716747683,
  9181706458178179155726411372197007626206315493517261727511367570973605,
  23835786039393151740322107683394747802870695,
  1912973626693471162424948235469468649831743644584,
  546751294702076460296941128231473669033,
  96327289440722377952007261905325334815658,
  452261397685164,
  32793517,
  18441134,
  409684933895088,
  5183529907,
  32793524,
  5682718317363835724727,
  309620416734136,
  77722389415486394,
  30237630,
  7741924292,
  5835154374,
  382145603593161,
  6257140685,
  4562641870,
  83938567714349046122551731151,
  46436076893742071505412897081585487971358342789288990137926583549718491154375632,
  380195970652679483829269900038627419090,
  22216076043232895958,
  17785824,
  127229284986537878851280987105,
  382029639476195,
  1491242083305,
  298191005443050,
  8095003530621429380511839957574637,
  30237682,
  1503283418851479433537286469195546858893178332148,
  20210678,
  33244764375112981290584403895293,
  1491242083328,
  97707226591159297,
  309461872043010,
  5761981670963396502533,
  32793611,
  2135643020379795981989764106277905423,
  1326296884240,
  19536642896624378899,
  115140373217829908,
  32793627,
  88924449358146395921133626396,
  5093120819092398564382,
  1766774301728,
  382307730220065,
  6254584870,
  410067171632170,
  419591993748429715767845932,
  8099897537570655042691231269545005,
  30237748,
  547081482588903964500564884034831017018,
  115786336299148349,
  30237759,
  32793665,
  106210713538274198794064218202585502606404,
  30237765,
  139388787711223138702220397359361888117830,
  10041314907181010512450756370499737850908105321621107270727,
  8425595976,
  625211375029696993780017150906236232778,
  1189541602386,
  20271889778493121620,
  32432627350997612568538514744408,
  2078568506462,
  1641300859682199038092391,
  705190175027942810453435464871172909982293160207266033880973562733297427561,
  5835154541,
  2146926568496450203214279765437954660884878222456,
  29641313085560218745,
  1207774241914,
  1491242083458,
  6908896388,
  490927008539781,
  1909401985816540420007047,
  116391299472929339471327159441,
  154730726096200376517810023833536413516531788632319122,
  387114880754837,
  30237846,
  20210841,
  118190101490044686020424567702058863715486,
  20778263380768351396,
  1100400059561,
  1207774241964,
  8911980345314762944052177966060433870381671597,
  1943663678427406320034990,
  29497198171288659120,
  5183399093,
  1598616396983,
  18441400,
  20210874,
  107570951766173517274162685116,
  457788114625728,
  1350881924636059572135106,
  76407292990743749,
  455992070209255667640006141677280071340892924175565,
  1887048423634962449261774,
  30237904,
  5701938222115363797528234475939026,
  1324356560088,
  409633847731422,
  76380273348797666,
  32793828,
  1495692828614555885065814445101704422,
  1490606589709288647731396785229554944,
  32793865,
  7366815221154202281234,
  1456821530958312083186968,
  32793893,
  20210987,
  4730414382,
  562441105504495069640173662191977346713270721398459934203926094847912731951,
  1880091737829194238912375712465043495606456585368555348387126,
  444333949216056,
  1733230960374670050246925468577736045600323562990170170221881,
  98198152877139155185488426061579473413435,
  51068306999805607368859371914104004471042904183523706827801906638088113247413532699724637502,
  12214641702185713263359541667661395790171004146251493653116981273395859034295854399,
  9912230772399620599943246634567845772834548246105611986245,
  131091881170426481286297211427357290500204497703888200,
  6908896585,
  396982269437370249332440091945403978980884928357708,
  608511677387356590823561803653946979833568403613007,
  380170651822216836349865734137850505269769944720721,
  80602955893073237,
  349332903106935302053913942,
  186404239266579606368366743761069917429889831508420555945096994427045112538457,
  419570958782905503737734491,
  489081608977834142245217629,
  107888286668348662427090707806,
  148566590857848958776031955818586065823074,
  11121465419187034421878376952237742930249611406277107954343918446077283,
  43112565281418379749756069111401784887486969625358263654,
  30238059,
  509507898167661801000771308130398006827296077669740,
  509957016349309344767591804714550367715646328141554528769366434484632249712,
  26587339927256017049220583548274,
  48120942647143330568169776804323620084868980912486952099999231305282456248673652,
  24766577329008446875334658516343,
  17581993416491770097370365710003920133796834965014716333314114373030946346545239331542234971807347411704899532444231047,
  137510123080959102542072531102078139524491,
  383299446597004,
  7620612457496505836944,
  92257230657594936254102282337614659413393,
  29641378072878605715,
  10479453710838492450034867936719761317196395088045815869737638234187159,
  2601972097323046464009313797181135988998189019229803064681881,
  311545584379291,
  2011149464731330331422635939222375243790087906716,
  115786889263605151,
  343735705429409,
  8368105867754662175664814847059364,
  488503302647634628502119845,
  377861838516246905578218919,
  426265675659727985408501161,
  1492970268075,
  43357451131661290826603720880759464389393571408113236739435933427117,
  182902825899946692268742651564536892437601525121898386322167284387641344877999,
  668146760255686767918898152290782876609236662554809458076849713385465883307989039448699103422637888556719170992,
  3162202111943919494934861943312376947091428085327052027111098415460463990962652570985262588539241434678267740047427196973738911950265,
  28776765536366978492,
  1872977067152133052423783218284134703462885503552349157541947546363585981,
  1781658245464618845317050139299064889166640473537,
  381640489395651,
  6707570116,
  2348522179896663306819779174833491168811279738309,
  5835154886,
  6045298002358230769778396067119064998428829131,
  5001182422781254002124,
  444543090255310,
  127325614554194892541980912531966087127169136821102031,
  5801600466,
  1187810141654,
  497078244413039676892937433844795306768335822742999,
  52455229726068952565180746437819910240928885561858068541710332804639114682297868186702603744,
  85605676743097262020399359458,
  65780503417726004499167589942522141233186667803699567828656321719217220314715180707264092349066097147329441824968308536236205541,
  9917253927639720064342076591988651277723888974273286989286,
  11095829800780726441693604360120651492847116688256328996217206652036583,
  405715537478031121611122152,
  159265547630202926891519794014393167167315163049588032638913756165143693125097,
  127380108204165335494060369388,
  22426323629901271403543721108973,
  6897100270,
  1494570591727,
  6707570160,
  9023032170142448701344387461985648301666493937,
  69827729362290674715017750972832808320462728740418716632133918764804442753841983991712985169955235520010992972401248086865307126,
  9016426059196673460982961437751226480321390071,
  418517936820352968593434380562074996022695719626234,
  1768676877824,
  36661684247036464334922724023532536858298465328740853315808132097538,
  5633828355,
  9012342883622404285468774981546703294516061702,
  6426393507530429654538,
  7044845746706414610089418133925825076160122701233904313868,
  4570719543241580107166695442249371440571469844738667481958259849136293249892431479696602227669068361132584732197793651684036704495118,
  2170316698685767147336024301399508824575331453395874945394191,
  44637800775874308917856566708659214552436000694512313561630654946523269339529808075139147283,
  101238240701478308477313705492,
  1768676877845,
  4715406873,
  4762330653,
  190616276702109982632763068795203523638909251629328848150240284644477858588279233897141165645547267615,
  1830133760978723298646593579466909216,
  52519383990591525051611811714986000692757054531155829258503792604646666797218008700870747685,
  1641489215232489866421799,
  452294083307048,
  9023243703955992722897940962614518240377202221,
  701605161609950317432841609083272921644249673181927388717803055,
  1768676877873,
  5835154996,
  97699581549504053,
  1768676877878,
  2323684114940007609361980,
  170149622348004966117739497993846820464823934467736713513644877374,
  452293797045825,
  89697766143165371429597893921350532490819,
  436380106660413374210153897321894667459025872362104298413319755,
  1640811830885705823184460,
  22560951051773873437577985091151,
  5854038822815182861733282431919698,
  130377804189052035467537887367100960471668453524858451,
  1768676877908,
  95724460976334810614617806404367651464789,
  30002025627869996630,
  1768676877911,
  26203713452803394936022160970200772337752005516213315162,
  1768676877919,
  30238305,
  1942575070093927123281508,
  361589029370932673147790950,
  551709380031075206833232165415051552360,
  2643218567986345796165881898689575037433058961433562392475353253367313767485218580078,
  43505648255979491729687873470433087628583067558342616788144758548079,
  8123182504722764424816,
  27711693573710993927720363383459380897015412,
  509151085982227086938392112136985336727806095746678,
  1440320677495,
  10326542089915342057476846223148550241562999762107191735773995356116580108955379322,
  79195190622185086,
  377617452117673211479942786,
  1493800609412,
  7459082184925647824519,
  5183530636,
  135932942073286295212562704197278225426065,
  1811372194487262250161098994925785895817731024010458311976598,
  557997730045655403096308748927438558028827589412787622521562775,
  30238365,
  1164355593895,
  127309074373024674546109015720,
  2123960885626991253972694670208951982,
  168086728471110741522942870231393721632486950035547828,
  1494566725305,
  5835155134,
  116141551110547161,
  30238427,
  387695353095900,
  28776621873374193373,
  452285211305702,
  30238441,
  1584636728805742408525552,
  33402520865549770830527353738270445189113288796455669000816155483377528552908530,
  482514852761614768990873331,
  1879136838949907775400571837431732936286229147120912701023988,
  30238455,
  383588192723231382132802906489957869305,
  32495064464846058423064790022158800560226562585574364900590289118972,
  379307976608663012735672555173916927742,
  6431060623057598434864782460032354613297571583,
  6101636865868265430045186250787547513801369344,
  44570342776511053193991589484384211708837185617156413891983409737106886487453173557608474376,
  720595824697309083451981141813692913787669977447500093872241523433891148069609736499053232477464329,
  30238474,
  5847597851306714087279313106331403,
  2064049159386890153618119337970345862044517113219448338168895591847323405,
  1779706980112,
  425521290023463835982943989557749704468,
  452008193386261,
  8546931729346300191753581620378293277489530272168279329733390939067454412235171607,
  135518278451148261904246589192375389792820526679473087239441597480930572003099,
  618598769920220441461695777131191212444231042667319721647349318987823605533,
  10198921819507247976625250560691629759755238543628580250007178311905180060831278879,
  6412196296883060107046,
  44729485524635045677628121597189843892262496956525749156252117181521498637105777497454765864,
  1634414789911198293600579109774772837223262148572343689504554,
  2138098515911339424560781903366954348314665525462910261552939,
  10100516190487033001286244467325209643172361773053275098769220883458161836321573137666804220663459797856083745628055340,
  1347555306712872698210093,
  145402904042050339003679476529829687423477099510982447,
  25142222058663490937708331114008835836831537,
  120983996772179864954417577932289954772307419538155316,
  6871445737358622298025581502724875823502419765,
  9321646994070424660361370106875142507361995805430435485941845502602176822770366728773083686714,
  2072050367369681695565353853816694589,
  8351920623730889152197093113317622934959786752698557425472,
  509063194395447123059641004385861874313530254656775234130117109770312771394,
  7593571741927481975881357014771820524890609799087223183549602789054891815851353923,
  126870182055315920936841055605053554517830,
  1601374349128,
  118797252582469845438489930380897706141513,
  4727859020,
  1627404209053972741345083822105624486463539996494,
  21896856312986034423834173138767,
  1646009585651097635154489356640814108895685994320,
  11220879655273018723049537407124350973929142160970241997222659436930897,
  1492967581523,
  1306293460137419424229206,
  103286316339714947114813011434395300826933874545878876,
  5300779844237810100062,
  7075922831881784152613267962479819469275183148577280255839,
  7588410970949887289184,
  138564992247077782882124868965516382038852121138090525973732885109184865050691085847324513,
  752746622841789811928001610588833951285928565645538827533263722019692915881365517404722051828811854903581632357,
  403542078269279985997029396270516930758982925772648]

def chars6 : List Nat := [
  33253225,
  1492967581546,
  379313513908578829194187000581317158765,
  125390101745935163858769537183046043695821162932496239,
  131929402419656925352911296552628183144235924159424368,
  1768911759218,
  22199469187749865331,
  1887089190400367715968885,
  455859160835959,
  94464933849032572,
  187089002940489033583389970980138582169459095989392302028263348598710776915838,
  2641608488941896992209140860777965443711364051648052716162712903091840895,
  2641766076251632747618065906503207685841499176635094678774060867661816767191577618305,
  2379051640253255044408760311616219489855138785156,
  4799948679,
  328319490519434213941733257,
  97142519574128523,
  531194697235493210038514887434830374800,
  1486480225200159248188234330351525171506678687637,
  52519672974068690814537282111559650261519565186856634663279327624142945566787715322967844759,
  30238616,
  89319502934724045053298632602,
  44390738342157410632974104854587826399547690790715856464415692010116517137571883275608549276,
  7959717764461280193530266359878170984015773925133675751325,
  4716390302,
  483117351928027951736121250,
  108415993368467847054420961187,
  104742068866082725,
  6908897191,
  30238632,
  637397860561303100798607247040862387346972809455530,
  1361699059506233894201259,
  379396810172333,
  507781084143196247011800270257295812527,
  5836007344,
  18442163,
  30238645,
  40927041272017963879456043864414376410187769668705781734889118853046,
  1484164523959,
  1765770094520,
  30238657,
  33253315,
  1328771600080286502184900,
  2010214225608914046459170073072104702485802674127,
  1651008498208114234255312,
  452285190203345,
  96429760004384722,
  568042336693627007117391359121559745292963323078611,
  9921312012863150091542575472562757174716957824025521842132,
  97846205992495064,
  5835155417,
  452281964849114,
  22819000068602956198909740410844,
  6908897245,
  4799948766,
  4833503200,
  5633828834,
  463382549217300608164020275997349446049178225076370866641070053,
  22636521,
  1361722045880108350072812,
  30413028439491826847688312982425965189359599,
  30238704,
  509155713865135023271147405763532297118333317769201,
  166446839534710260474747480843925764920022537641004757574533998579,
  1927394442387027645166734665444943005231082989556,
  1494566397949,
  20634256924716197887,
  1768890656768,
  1665143675567233964861445,
  9490382475382291580436916034317423450209401261617053351146554629122055,
  26845776896065103880,
  29619993555548071945,
  5835155466,
  21871788125004166373232740821003,
  1491863300108,
  20615679585916971022,
  1955317744808232903070404333327181839,
  623114574192496604210311814619155888619502703301423068238254388009688983569,
  7590013661866748373011,
  32829735979621914579273900124182,
  92407227225299794428764414471666033846295,
  8507713565,
  460592515993920230148254624808563675086423529855686694275737633,
  490650874112041,
  7484611064469362955632123262350005883647715370,
  18442290,
  8511907891,
  608710543713230586365109897433124712594859581584088868423224863962652108855,
  608815947375722909909356438408424556419156987701304,
  11152169562124316434293145336610743807593466322599064322395954056089722431719237689,
  136086420052455351463542239386063165585262221010163612822332193236439763003728281156020284,
  127309050665930229542918055997,
  97843182323853374,
  7362095953948415060032,
  4363741249,
  111533879411992712411611539359496280120246464330672797171001813058,
  30490773632448147346782536864261424513902659,
  8390273092,
  115786653672040517,
  32987337859851320387661662349382,
  25963216820048519819703462138967975038607827889095796808,
  1482302253129,
  30238794,
  469000067370959938190101567580034132044,
  5169047630,
  8399085866961608143378959549687888,
  113797910815129117276173216765952792324421060148503614584029669457,
  5282214752866191239251,
  1941443314212068883261524,
  1760086812757,
  4720257120,
  18442337,
  452362285836386,
  490848337838959659870775593660301854995975482468451,
  1765664450660,
  443699200055157060344577121599852959327436407075905864642160741,
  108974514874016300166251505766,
  79196292690700391,
  6412216269905226983528,
  145643350468677063363481987177,
  18442347,
  30238836,
  108974506968125058598278752374,
  6875342967,
  6653768024763747155019671649127740929600795784586165184641,
  18442371,
  143204966216316793571258823516256103103562108393126937134276241541,
  1639816072290827941537926,
  1601173022863,
  500638647334474807793772691,
  25353110303490540109321538398359,
  126758839296116373205276059810,
  10190963677685462434002727577096041582287194019771505535142,
  7643624513368644741287,
  467995307614235720043002511807991081128,
  110291774574898348154354579864476465064109,
  550801860067729603504175817252096534703,
  1953452126448425249369347676517787824,
  1623112146146082003379201191752001715,
  5296348321444941293749,
  36249719091306622287939585948726142566951104,
  382197761403074,
  9263139580252069998892816989386599755398342857,
  92937790188036450969645454098322882652363,
  7462812653958286960845,
  27706851373860069625656807862707027955443922,
  127281271468044988800403335381,
  32009601295103635568750791125208,
  126693741568689596659257665754,
  5282549356509152241888,
  116558533379254499,
  30125744390896801053989381565455996869087551628208912707976355735790,
  1779625650416,
  27908131322448505164367092431901413045070065,
  1910701868924671423310069,
  5835155705,
  1362782002247221770807546,
  30238972,
  452291627673857,
  7588555126707154675973,
  382196690675979,
  28670114097000781512962943628026189246120525578483886349,
  449809132841230,
  30238992,
  425661692837836180856334610,
  30239007,
  30239008,
  1491863300388,
  18442541,
  1353462641901056539846960,
  5789804852,
  457783306316089,
  452290554784061,
  29496777767656450367,
  107733009659685186,
  99177138331674964,
  6908897623,
  457351946250801700180793516205798947990411560557714045489146202,
  1208389036381,
  1807457263138099653667166,
  1347573771614827937753440,
  452291627673955,
  97842350102571366,
  452293784332651,
  31156590,
  1944754108269072249088375,
  115714117042268536,
  309630028966265,
  144440557401581122070733330283380730072589200552153518775490668924,
  31680896,
  1417625951506336814439541934455875970,
  25047788357359856004,
  103696059000936625510538963334,
  452283071293831,
  30003155519919450504,
  381642125961609,
  33253773,
  4720257428,
  5323856868452270172565,
  1495187155355,
  118886632738759019056289516978032837487004,
  4720257447,
  123594855244770631460561643944,
  409676950366635,
  482737334807307526016428461,
  30239153,
  381915355507124,
  1492313270711,
  115151252988979643,
  28776610845149718977,
  439372399602122,
  439204863175116,
  1491861137870,
  346486219953972406430296528,
  33253844,
  1760086813147,
  1758136461791,
  1493798840800,
  30239213,
  4833503730,
  116405505499782281688600177149,
  115294073572256255,
  1942573124324226299030026,
  1209499740695,
  31681048,
  117197327161715231,
  37117796900509312073768828535279686023263725664753210565583127013921,
  2179081005608,
  458386023898869049570340606533912953317426884978529359921179178,
  309355116915247,
  348896019337426870245878321,
  98292621576333877,
  112408681254644285,
  1766771747390,
  1230929226308,
  5801601607,
  6926985808,
  79690421363108440,
  5851375710642227495778224004754009,
  18442843,
  77722916167969377,
  30239333,
  2037309336177,
  379998772554361,
  382219239254652,
  494592845031241499077732992,
  18442884,
  1491863300750,
  7463535059994976807568,
  7735962257,
  8511908503,
  30239392,
  1494012750505,
  30239403,
  97848400125979308,
  5508830699035999947279830952995616,
  36426617386424470505190397101801844787966856857456144945781294896067042806179621971418311457,
  10205725232930458059182790794542336882684412543252202548002,
  9195953518239697425845748292021529338568796963,
  5838236452,
  30652202539797831507100408925477584670357906458545087182233877244711,
  2126797313160647385636001477751696178,
  5838170935,
  7696706361,
  26547624694809196869673557453626,
  26459493644508388798021027157614800652848196539551148862,
  4550060867,
  282144141962054,
  580361832139652404496272142504729799495,
  372615168470050346076760905,
  455517454749551721199495963941131225114438183169862689980246860,
  381638425799513,
  107775632886099611203152469819682215502956944768133986,
  4313352290813542403482762988022055355599052275440929267539866059435995972545221211268651230836283650243692347756372257635,
  153849874592102639723727537097326309786491788401732452,
  2071892704014524497181466201320146757777080827434083017376988477001403757967746493285,
  233874498507040258714716812258611954021206964394673101231530601849653955550469534530141843919348525926,
  7872157751767517821466906405202791,
  27244558311282903945121640667283708479564650,
  6042389761695430568825,
  1975749645376219912616506278934865099376131813092879402360510753608592251,
  105862581380737916,
  30239617,
  30239618,
  19552816714841615235,
  1492766256004,
  368614615313286,
  382197764090759,
  113873232258689929,
  609038682994841493131717411367485866954797350939530,
  165089207610448086402722099264222355261684296467720032745256741771,
  1717908892557,
  5623802770,
  8429792147,
  2163004951465360163346033650349730710,
  17787802,
  30239643,
  105896273218136993,
  30239658,
  1490821016499,
  374336300280756,
  39396336218236988217495234617960561939982767012514982837,
  97279628788554061575886871822235355278263,
  551135589800297410753371023968531213247,
  5610665998632148003031232319613889,
  112408680149511106,
  32008288950653249343453426052037,
  107656785268742860736182905803,
  38246190720522862632454556261035547392691726183567027149,
  2135882251349064385586577745534938063,
  2947910540152221466156098383535320723855639880481166024471486157578398674,
  112344093535595475,
  2836992301193481618492382092339912670914054760887050161527153087909388945947705806712404239870932,
  417406328540600320910613415354853047137148290427861,
  6707571670,
  7641032405742551067607,
  95788580939787225,
  32952175007516030958346751033797558290517956725371909637437848837577035143015387,
  115210509579086817,
  30239722,
  154092810604587109316395958015912925022865675030785003,
  99247984442174447,
  30239731,
  33254389,
  8511908857,
  1598159088637,
  1766738193413,
  18443270,
  8511908871,
  8507714573,
  141342978007997980954709651522006053252111,
  30239760,
  13449939986850582564465128966312105219652399536758368592709894670457527000195869263484086217745,
  97840407191841811,
  40922351545034565777627157018694321644251439619691251212441306802599109528472415354408758292,
  30239765,
  6863547414,
  4727860248,
  18443289,
  30239770,
  4720258075,
  1663958113878530269473823,
  30239777,
  89248473364250974450626423842,
  5169048612,
  1208393231398,
  1498532495923321505071096456252320807,
  1455026183279511097404456,
  1207436930089,
  30239786,
  503065976008521516014201902,
  1663926300472755965488175,
  6503933110404096486448,
  97800027496999986,
  3350148579682888461956640371805705811916919950175676207397599222643981379638806647897029367917620,
  11167347957643702528432574980843718094839411408855543746952052701883448,
  32795709,
  33006302619122843982215335799872,
  115316485283279392441921793089,
  6997434391741496156138156282293547872305001432339637890114,
  32795718,
  30178166838476413651585513932890703323654163358798123281732106218567,
  722829952691157119591614072012476566267351261996567551791917165895704330170714222062665,
  1779611298890,
  1982552697936,
  30239828,
  1941356071420683203013717,
  6881118251702009945236826374733306040615005271,
  340432828400576582071839835,
  315127585664092,
  38630107669911613341137916095581,
  25049971488166866014,
  2096948137762110798624347599065973428579967391496641443735045206514239794559965883487,
  9129877214799466302690656895785504045669826744560488377440,
  130040217456317657835704791920882661226353514354601057,
  155295262347378164210613923375903485251826620535762020,
  18771048,
  4855000169,
  687076406317710907995504378464942250111232611413098,
  7456249784350398508144,
  7601183152004280904818,
  29857490706656750708,
  501842945849584690816511094,
  138030387950438331385661123705,
  2151540115287670670422076554510691453,
  29660320226722344062,
  21874773296960189839686382808193,
  1933137721342196035185794,
  149516182572179555638948212318884372641310897906347139,
  452293629471877,
  4715408518,
  140914207071704020201018234779367382936712,
  2187679559868210284896026320753594544835397061713962395266185,
  27579638741743987852,
  5183401103,
  123519650754015747831800032400,
  438981475134611,
  314851667569812,
  122675955787135461065972843756701136570813554221755116763941864240061823413401,
  27580515984707653224150866095259]

def chars7 : List Nat := [
  9731236771095823388789821118657462123972095135,
  33293323814014740409468077796665412342790525405640289441,
  452029669141667,
  1766187101348,
  383639858446341520995570636346724281509,
  1665007747563740808375462,
  127309709342270142361909488807,
  1207402589353,
  1810095889730032551469990572264090794,
  1965963592922743944342699,
  98616979520122029,
  4714425518,
  347685418952876611919047857,
  803621568498087778765226863728499872622825756409321887361930004835049094433538750442675,
  348904068509813948343217336,
  780013574919441847092070846400136937067919487569284671789010857547722290839594695486649,
  779233030317146162125276340404189639952614309729969403898123990859011301549926216461499,
  25191829933982837948,
  8104971191982884633698068985900221,
  405087458333248743173024958,
  2378360390245698961206476205240338423607592774847,
  29795997672448779231885232860356,
  8392043717,
  497365148965203429499485638481997734993570607754441,
  2280577268241530960206732414701213723991121423562,
  1965061615226219343932620,
  5835156688,
  1766773189843,
  6863547604,
  985250860059084115034090829447256145507323013358437779792064277532895822830772191207190719462969524553854315733,
  30239958,
  31641164239565264009263461592279,
  1576932918890382452199012225169362900486667136219,
  1377834724574,
  29633228544784690400,
  8393297540106418507116656495909165007524949217,
  31654825970935213282964405520775404564222330316552602829087589155448904570793186,
  1802243605177570593018695391655521507,
  1610875468273226326779759708083678635825400251314487195954405,
  163208993631432023516525939597915879494585968191892712,
  1803437038713147387846500220183080170,
  30239979,
  20796321377073982702,
  97842602886720751,
  2209107779527851569863553363629395194165515987295785331466144346722561264,
  25047682465838099697,
  2152868730629787628311138409618369779,
  1832875117190394815278325,
  30239991,
  1237439114488,
  1230974577914,
  26974976518193801537161782390011,
  39665425692454651599861751901804774520387711440428231932,
  2376714408276925432541232426563193790296946863357,
  29948542863342988542,
  113795829564622328579456136972963545632850618369058414531971149057,
  452538376940804,
  6911454471,
  49414044694034090959733639541455917408636560462987162587246429422120341215746414476890041611,
  382197341973772,
  7740288270,
  137680764660454805432612201957250819190034,
  668888391525843724116006381113350647386537968258286669108899095,
  1768676879641,
  1549291231958323448338846808071258205596231298331,
  10693498051323928119546005365390054153602159159423511653662,
  2402538714205839205703763541444595565054970677231434133256269588011576613,
  452025373256999,
  622566546186753511470091015940219860148168300119058160911215372225815997738,
  7740157227,
  455306767133998,
  80394497495559473,
  30447139101376590429767577106327247926488370,
  382197764418867,
  1768676879669,
  5835156793,
  13290815077152686743307548339726468212689582196630409685903029411761707658168003899,
  430162975059622562690571408908477885756,
  139453487203908148686008642877,
  559811514925661698349974914452979736010950977413942266454895934,
  8902277273440896022998960243543981460617652584859595914510210259675564382950386301391179705665,
  1768680287555,
  2586539124829724211325695551853622889949267990873235515272517,
  468363673271256561752509213961585519942,
  1209296581708065375808839,
  1766771748168,
  383172100298442420999240159791153376586,
  591335130972156560312410210064873455317125313097035,
  5835156813,
  2949704044809613040829881971761986433558945188581451399403079617688365006152925801806,
  343155876457807,
  35242109570957832717877055714400296872013137,
  1941429768887918191996242,
  27616579631936605564113000012991547971951264072917347667,
  29857628983129107796,
  21678527439753633520859840671065,
  25119704724740402522,
  1238449941852,
  5837712734,
  452290637819232,
  97842898786479459,
  1644816320788801195667338788626659132851158412646,
  33391407600788490509151554205644010413573660140776418665,
  7747311229762726025206500000130513170106278534311874094757948501355882,
  36786598382518493145148571778979477463084858925412525930736187108718,
  381661997788527,
  415515211275904778677432227750519008628,
  984301852075132528018940291101329769690629793278369623179589566174985677033970600360347281671496409205253434743,
  8204135215623567629556550512962936,
  30240124,
  501892740245304748065278793103025644196054310748414691979324802,
  27759602643182035579711964999045,
  1971644740299133259241520986609614821413214580104,
  23678660315560252523417650768499363754044809,
  30543105052961964458539303423737797736164748,
  19542413018127429006,
  4811746705,
  25008377788536614291,
  27579581904840387988,
  419569055958045307348544917,
  109050976969499863402594135451,
  7590300411865836645789,
  80321090157374878,
  24913418899968388511,
  30240160,
  115286123539426721,
  1166338715043,
  5854054791642884318411467284311460,
  2398361519106300963914302662942211086782704424263875774999974,
  1956782088182726760492455,
  537175979688975154423554202548198206888,
  126616369719666043351073844649,
  4783500714,
  1492967583147,
  86892703571537326,
  127392165533549932449686449583,
  553371947600316010484618924766233456050,
  5204447385223564978432695529467317,
  4554255800,
  4716391871,
  125224730421950669640024288704,
  454778486156740,
  79162783100202437,
  444428442693062,
  7676195039937796337095,
  1465083095743912685732211170131149402783025294795,
  452579846024652,
  20561623474989788625,
  20291912986522381782,
  31622134515848325852485360315864,
  4855000537,
  4811746781,
  455591269854686,
  4811746784,
  128457981148612535845302450409469306143467137319705848094798736865,
  105335619080331131751161425380,
  1766772665830,
  1767231092596186269893293496913128939,
  1323390496236,
  97873868260024586148679373781051667017198,
  52722916201397623561240653025870722552325504171607990450340274224394357393585308786464157169,
  27937247627944108890129774112243,
  2801122270507956913383831707528862758591316510714916563938807,
  1757257130402044571839993,
  7070052304742666951997221774847483,
  1495978241532,
  248673095449123707832182085381132292456284682393584264738902231577492652437004076505917506479506937259006835584517,
  6051547962068407667421085819646018574129786378,
  115787089157385740,
  29478791247748689421,
  79268415578336782,
  1808629334024315334033766265892859408,
  7736290833,
  8556516980006712350899943619581803343348067268068535528980,
  7627542861713286879729292766637591,
  20634257222225718810,
  88390995368072845786809986589,
  1828755745560495924695439996949720608,
  2593162174804614144251204108935421883447304592241539536940577,
  32592678003810594751015305178659,
  441583272554020,
  1783487163941,
  199489018578299431985884178479424892596525163508574153867563521709278982704545355869548073,
  30240299,
  25264733829902265901,
  623619565947902927313522095437826016769089062503696243298823727,
  452294251671090,
  6335369703334845322713463822511668,
  2770115945843890177376827091006121870728137689722623307994309466621832760,
  127351093804437634345429134906,
  5909054670506711871043,
  1224487104068,
  29640822478505930317,
  1715654585934,
  30240339,
  30240340,
  1907391058836257889098467399181413720075006630360127510683747865440710230,
  2158020518622450995146542671679549016,
  8411999902104470130021150343720539,
  452293562363487,
  452291745115755,
  4550061678,
  8655251587372581793425051259934656628694871678,
  38409900394690699474774331953349214233359328377446887039,
  6180783222819938135683,
  452124579491461,
  382196771548806,
  95870219711966857,
  5717716623,
  11904829991825181297653527166478829152472646733806184051493182578453774484819766928,
  17788568,
  149407263422651173074844485569753455404668790787829404,
  1766771748511,
  8206239983860349333113746740571810,
  522934202101413,
  7736290983,
  141274144884642587893014157850899987918506,
  455314335891466507343130287,
  30240433,
  30240434,
  457534709853876,
  430994360933421842085736276545930620598,
  4308430519,
  97136853860642490,
  4296634045,
  4716392129,
  1206895537858,
  1362907356694631440019143,
  25142230719194796614310552402280864254553803,
  1493794975439,
  170334756839015296242414426412289315264211709206526706412296629969,
  452579390484179,
  125062264437619253241901379284,
  128239966134047798376934371029,
  32796375,
  508026303616607212857846644754568514465206451334874,
  96667486978857429964833451742,
  2179667881695,
  30240480,
  173418382904049187421298698208643427235128223205161209134961507906598065118145681886834401,
  1768676880098,
  88313663293084951076031196900,
  415656756991825370113644122024747232997,
  124214247868018020087188319974,
  464695548021246547811301338189634563816,
  1830941097051533565886818442081300201,
  11096200044526178605265120560254520594686786994236035530660909145157364,
  18771705,
  135976841744316321837189475480605779062530,
  30456823845275516130417120576072850685390598,
  2150679605001,
  7863205361787185699036328528497762368377614095,
  1512851011997038682599187,
  6101747188718492221844358453133232199846620948,
  455327085784853,
  30334158857056942362858142484498196867936032,
  32796452,
  18444073,
  79195405985476394,
  10166576959372416006974414716728093239035266068139969900331,
  33255213,
  18771759,
  1964972225952993638641457,
  1941360394810962300792627,
  8513679158,
  115719595720208190,
  6911913798,
  83908815476090702879701102407,
  382609621544779,
  18771789,
  141766642024513815244891946605301368319832,
  606640551156363650612982175158047637065772341751644,
  97842370620256094,
  6873399480978298990434,
  1737565957990,
  115801811413535044326009578967394950934381,
  140016728151096935102717217643487642968890642965698766105411678062,
  4730417010,
  4801720180,
  97842783427981176,
  28760285605699415930,
  7588195458604978827132,
  1662125784668770172609960243144978308,
  29641448644799393672,
  7736291209,
  1492967583628,
  1982586384269,
  489443103715198779082567566,
  126657171785968837329292259228,
  9271819959657508925345,
  115789963871547303,
  155406402313677049187299375911742021445845966254927795,
  1490870431670,
  4296765369,
  145402560695099063689656707250981785528474855078653888,
  1766771748802,
  1490870431689,
  98548527572873169,
  5194729630653838815186,
  1504781758430,
  80816970924912608,
  97842466974494689,
  97842360861224942,
  81235442895581167,
  29641459481217429521,
  7369388015161871921178,
  5314488817731031101467,
  5797539875,
  30240821,
  30240825,
  155690871935430710081810691263107073032838866032750668,
  1766771748943,
  4814762078,
  56178279691811042259060900260603049815148964837459487834070654894780361427768320909242180056686100312171,
  468660374818489340315730629406399688813,
  421393801459731648989544217688773940878791522480239,
  1610820009331080521344467261690354750571239832882669478834288,
  186862382058234592529492519258510465540602504722121464428562492994270661275765,
  411769666638987593359388790,
  382191110025336,
  2137978015124511257516864884511764604,
  7039606788688051898770709028630654,
  1654158859029526359036855397767999615,
  382411499860096,
  1766771748997,
  97611334307043229328168350873109915070601,
  19920634299566092426,
  103480345299638427491172277373382573940450049606119566,
  127223241760119622050841391250,
  1787131687060,
  26849100165673480341,
  81122466548969622,
  24154058245104693401,
  1768911761564,
  32796829,
  5314507461760377974955,
  1887053179465689420361900,
  553395620183075702001016997714054443181,
  2364777908017862681439651568998999572454999421102,
  24143617550837575855,
  30240945,
  7610395479281480986803,
  5836599479,
  8343317408043740741201783015370936,
  194292853859387845064675549731326221026192941582967494854986994142689747837090651829521509792966340793,
  4730876091,
  496999740214785131032767002579219179058703298228412,
  5987932122247631761597,
  32796864,
  1942581640247807172702401,
  2737318260891367670676566469488333279409269233763768323043522,
  115786382006907075,
  598358815550746327518114928579661375036808663150026389536665800,
  382198217404618,
  32567485199282474608213773021400,
  29658837262930637017,
  24765178546165545235828618916059,
  165217863832606087583103216261775476446220905706776734521783578847,
  348626208268880736087732452,
  605602609661758667995057575290161039627981590393062,
  2147307099065222133442410976086685366063925063911,
  1768911761640,
  97842627568300265,
  32588802078534279691071667859691,
  382412418281708,
  155142222447952361530606257076366595595106587681497372831555054365822644114727562426626939884941177069,
  348904288470302065677660399,
  348929048232763407419928823,
  107564328651794537739841728761,
  97970464753283325,
  150512457438741562054111686921,
  2099542830608755458905885812706275594,
  32796944,
  1766771749139,
  498994721598321985154937109,
  309355571605782,
  7975170328,
  5190101503892497133849,
  24745208357438420291468532150554,
  42052341117530561022566753403313786083125356345633488886807899238694,
  1766774305071,
  6411348175235306844464,
  1766771749169,
  201902516849144390421592671216183840021256469094823460132334993602245906886966,
  5183402309,
  451903496089930,
  128624411540734311539167621452,
  8206383856778232142472298661966158,
  22835548,
  1804882140815099459097825847729746270,
  24946822563342044001501201974433769420583268,
  4731499291275947635046,
  1808307197699925249177120129561832509161514622412649245340007,
  5837713768,
  7684175555756884783470,
  387136976351602,
  5834305907,
  1598163284344,
  32797050,
  87847766427201917]

def chars8 : List Nat := [
  497417350441319597306311044,
  107986151057057217709671014351779544902512496726471050,
  127314548711480216098016883087,
  2098344621320756175711359066428764564,
  6911455640,
  141427330657799082365159300064372911075737,
  10206848554417075435969643760336060388794231969909689053599,
  25047771048186900896,
  29615699295397507496,
  25037832722410926508,
  1491443872179,
  1491860287925,
  99079316899066297,
  8654202919654613502815395771166270600007741891,
  127309052522494134429817270734,
  30241236,
  6163199456992841876020505746767926109979505109,
  1493608460768,
  26585876521468134614055096709605,
  382755025809895,
  1768676880878,
  7740158457,
  153803107641716367198754901279475649431162001462424070,
  33255965,
  5835158056,
  128320947621965473293167915562,
  377282131135600850134921772,
  1766771749424,
  36179079696833388738320667224364612792922037871777114642563943568556302364071724825525383729,
  6190860871291503211061,
  25992047188107673097154304547237346560240771655483879990,
  488588406848243508820144695,
  115787203419402808,
  115786379867812409,
  379722786501179,
  168558780469691127551301179065014813146551907201872445,
  1766773191231,
  36374289902951413811885536735291199616913729171723222766286444897661336878446375033802158663,
  25140173422351307739360121047338867261469256,
  9235153724712535934125021744012121179017540172,
  112477083734209101,
  381892818727506,
  5801603670,
  435607324293040866315462836614688954625401936465800840366420569,
  11890049358494716915855614375709336778131903181676805145977463310137660482153706075,
  18444893,
  5772560862637091725099523557257823,
  20689559344597529185,
  692757832075835923051010702005572851892359287304802,
  4833505894,
  163446483940029017381816924858691015346524785714229863,
  10816864103343847230509367030675349598905554901915046874658374678049385,
  30241390,
  6863549039,
  1967664925283313180242546,
  342024797361826199995395823981621965429,
  11450983565840123150262969938606166932468339854174891893250054749813840325691164354432309228153,
  77006010966110842,
  6257275518,
  328353512855335812696994432,
  463173965495448929592473548434477511297,
  18444932,
  7370958567467019563658,
  31683211,
  4716393101,
  33256079,
  4717834898,
  97729099983778463,
  105404197714543614796362314412,
  32782924269798706501677892846496108692927151,
  18444976,
  2179047584436,
  6403142512127915861745191943227706491943875254,
  4299190967,
  2179051647672,
  96949376780845166396911724828772244561437101425455801,
  33256129,
  120327441395862498412099620880613686570736381574804162,
  30241475,
  1348837373301864150037188,
  439784304636616,
  18445005,
  4298404558,
  2157163210010820162497988867196023504,
  5789807314,
  27409680457434389152111136222971498743632376520695706327,
  4717834969,
  25045643789368062686,
  9997636819070278558917652053630547797226255072,
  86721845931307745,
  313585764496105,
  12231270229177158343177045464066467440432509344810658085014152459490804996978799340,
  5000887167227757884141,
  8397544096554343622568223311700227295482049262,
  7738520303,
  451987661419248,
  27774228808337852548495108043505,
  1736676438770,
  22639347,
  8507716340,
  33256183,
  29641443260187112184,
  33256186,
  1209502757627,
  36097360283678989720955063101837493105423100,
  8511910657,
  30241539,
  2179081007882,
  137586475024474969177218830176006815970062,
  18445077,
  4311773974,
  6412197506208965096215,
  107478397199947153459510750125433549090607642425389851,
  29818596066555470556168224797468,
  20304768633597293341,
  18445086,
  33256225,
  1187895669538,
  1374443303717,
  25047782244543460137,
  92954798966417219755818940854868119221034,
  141237918015531001350554505219692276839211,
  7740158764,
  24093592712622735973838577732852496241095470,
  30241585,
  6393698639434167501252661884924832503190680372,
  1768676881207,
  1981309547326,
  6190006666476000015167,
  30241613,
  1756894950224,
  5835158354,
  8510272343,
  6695777120,
  4730876780,
  1760086815597,
  4848317295,
  1208392446846,
  2125455762656490717042331505997345668,
  2363698046537803501055585194314295926503832028659708172268423,
  43875453233536855670310912703386494938952309149298085288855356535689,
  529471678549238350349454676710978908011897488798442969068104584457510155147,
  33256334,
  29638014107865674641,
  96434962367411094,
  36205236159801563155760270985444686722462619,
  1492970599330,
  6960672866239080718737333580221762910022824873,
  379471552672683,
  90173814878204846,
  2405666300505545471303008873474628362915983421627688319751858470281376687,
  156084378834793586006042401390794549660459056065093362787862572638162436518832,
  6420588293278815450034,
  6863549363,
  20214711,
  25119699220295283642,
  414880447947791423664405437634322199483,
  340452483749540588414399424,
  22836162,
  25047787876326929352,
  7975171017,
  530443065698265447753708357878579557322,
  2211808308426633533765224862405336096002177655396368826201037,
  1982586385359,
  18445264,
  97948409847116753,
  115719595059934169,
  314586374894558,
  36661580118297541609075740539691466882965858569702963999797717595104,
  7740158949,
  450094547301351,
  316886132421609,
  498518114903942255880631776789495583727182030111159671008653331218429044025509919224813,
  26964974,
  1490870432754,
  40965868054588167342989606720251527790508121493526377475,
  1505228473650761581556741,
  2385860719790854271683553952696886450600355085743949589832028773262528485564142189969955287330240742991426566,
  115293827720901641,
  30241802,
  380000676836367,
  7588187941666566468624,
  5836076058,
  80672672908669979,
  483211802646370129529828386,
  18445349,
  387970227729446,
  1768676881448,
  1649813311603467886490666,
  1768676881452,
  1768676881454,
  1768676881456,
  7070746486158083870838289579340851,
  8713493008767465155957081805759628023358450535612792009780,
  1735671772213,
  113890274775233590,
  35660762106748770027468027786821150554747964,
  2179047584833,
  24864179618464756821,
  7740290135,
  1952082384445118910919769,
  7583439144760762791002,
  1982586385499,
  1885688190574294894081116,
  2335948888445277533799919058152917457322780496095127613109342,
  24946206150318005959773885034930360458835039,
  1768676881517,
  18472386053241664624,
  328294760319072291167892598,
  1492970599543,
  1768911762558,
  1735506424960,
  1766771750017,
  109049923979033937213210064003,
  97981446946124935,
  409687490786443,
  18445454,
  452560089216144,
  98333292807025820,
  28794637068158071966,
  1955621507249237166486695,
  97765058854941864,
  452018923336873,
  31028410,
  1768911762642,
  151291164862901559118470482540680294639323295275119836,
  30242014,
  1490786546912,
  27007938738365777473987281515746,
  7457427616272582538467,
  450082941596900,
  11028952060643575977356324376199656973412412150998638967215444281693513595993093350,
  1942351023319244871398638,
  7638779204074032166127,
  5633832180,
  30716481914079098625178890645974814027248886,
  32572678334122502658633162650871,
  30242047,
  22525698958253847812,
  30242061,
  31094031,
  1208426919185,
  30242067,
  123516962855091354778003432143307922337826047624461178882002234721685227861272,
  1483387794713,
  2346962222059207401673493026467396470572610712858,
  88516362698594837661757764125249783821596,
  15153538879115086183967149174582368496132986570894173488750457157724285736106191559755049229899427127700927886260729119,
  1209458586917,
  558553131847380961477844183754328801750172584028921179287063968442704787449309430052136,
  5757715630327969641769,
  127543627265123941089554429227,
  1360361743600371315078444,
  97729020647732525,
  12249033756208753246220967013035203709077274427803980409737345532464281025777333552,
  7666379659211755306916016451533864450288295134383309305826072456230193,
  8436966763609366950601315007452886078102503245310029237176937245114526103280121138,
  138661256524877512665257349617963715499289879713247006686354634035,
  2269869514021804992943686701198095718618516059200938718917748956549993005267377812789,
  25055676831271188494711320987747123006633271,
  8439888214757015676939824898405688,
  314578946651450,
  2600391541437734755963663927044964285508152535096549046842683,
  458054400046398,
  30242112,
  490450044329979712322625999447215946940616584230213,
  5836600648,
  1326295250251,
  10137426242181784506093180717494060500660358972001555014622123161908556,
  30242126,
  110285524202989401108005311856493223900495,
  29645607960068060500,
  1811712504035268670946111454810706472552359830353833538909529,
  18445658,
  382196687664475,
  7049335779533436805841967545677148,
  169945477654120229496316454770178666912349120670430893207474238821,
  79194909938251110,
  687814225821623854883773962463376322352311224923498,
  382209690269042,
  28794656803490854260,
  28755259822263858552,
  18773369,
  7593023191793760302463,
  5835158915,
  7595173755325935325504675555875864481374303622,
  30242187,
  118523457034963582107146142054933561018057235853931884884398470543,
  30995275434555607351197690772905918309712234459461612945,
  22640020,
  18445718,
  32984086142639930745050577008023,
  7371437473501369955737,
  115195024936826266,
  18445725,
  1758136464799,
  7740159392,
  1760086816161,
  1208392447395,
  409127207138724,
  6695777701,
  1961347350668593071748523,
  8511911340,
  1967332505646444800734638,
  2125465925128938665457248434810549679,
  18445744,
  450633758504369,
  311067281101494312719381938,
  5789808051,
  7740159412,
  1439239337397,
  8511911352,
  450473775166905,
  414736430398751619196225898598110950844,
  7740159421,
  10049327412358694444479243455952840010313070014,
  381914747336130,
  5804619203,
  18445764,
  27446910162710782148620128905807075150318873591424781871914830886341,
  128844363930721586110365529543,
  6695777736,
  1757064754633,
  20215242,
  507215665395149,
  98595553154000374201776633298,
  1238445422036,
  97835482437219797,
  30242262,
  115229317232424408,
  668908174115467922758075409381250686454921191640653000584295899,
  1758136464862,
  1484332299746,
  5802391011,
  18445796,
  18445798,
  1599228900839,
  5789808104,
  8513680874,
  458058184095211,
  5313786250682359707120,
  18445809,
  26507852375093973247748693962157717106383310243057661428,
  1931915491368354756982265,
  18445820,
  1210332771839,
  29504234930276496896,
  352346069497345,
  33256965,
  18445834,
  1209458587148,
  33256976,
  30242325,
  30242327,
  1208392447512,
  7734326809,
  33256987,
  125706451239400991,
  479390328714784,
  18445858,
  1963810045045493017966116,
  29670926459254114937719959872174853766280742,
  1640136592068814690678313,
  1759048386036149621126698,
  27100820162376660523,
  18445872,
  31159859,
  1482192549428,
  30242357,
  4730418744,
  30242364,
  6273737561452100286014,
  450092604421695,
  8512370240,
  7735965251,
  7666456386448393860684,
  31028813,
  4833506900,
  1208393299542,
  1981483152988,
  4632180318,
  1167582656099,
  348895496134509991330149995,
  5382174319,
  29299047376386225784,
  10318770098788892962608208973824564213693982147806666562911822354347643,
  11206095906220067478595086781458858897261701707947217406809743265353527168947981791359882729029904681760381,
  607982199083938465601446590225156742196367540046898190109536281879368857214,
  1360605268430176680244866,
  8644041345514173945090985131399486698549058190129989738710105074988676,
  5267990977867042748038,
  507727738188478258968601510904430029911695865662104097087315237890793502343,
  6865319560,
  411469782769738411119703691,
  20870798,
  125695410126616209,
  18453798055524988563,
  128628021642336884801286534806,
  452781867234969,
  5835159204]

def chars9 : List Nat := [
  664560221918806909670123059656449278976396488316045781278100386664528049838,
  8101930817291633123278996542944945,
  20215474,
  309190213596852,
  452294337984191,
  315129490667202,
  79195461824771781,
  514748866030131290877887685028542529700432774264518,
  2614225957929134824817252249141263941879427181083915483444936,
  830703886651521292258590211186329287176093578652045853606503892810215810778797528676042,
  30242509,
  7361877975840724317902,
  7597059329625495402191,
  1784396680242369934680336775450537964293999654608,
  10154225332656539926358293853731656242932746620962269066961,
  28411769139977649145961671915218,
  317273954416340,
  2212485277978091011697355799099944132875802761342102915020502,
  1410359266287230945600524809718363863,
  135298727017356178642057498271203860921294590938862948457978543387017735665368,
  186404783455599391232003367838943173274471787636619536981307521101017445070555,
  42197356857524038662751944710380970249976083156305540831,
  1323269650149,
  551465856553377479550076372008958997347866715344568107357702920545936045806,
  490924240303855,
  18773745,
  551923531842287930637514210683555247858,
  10576889876292831881362708372193828995620273076220337506830169854080678766296610544173630060276,
  40484085050871959636718603768575881686800157325560914258534959283516950256580344,
  479496404367097,
  1952960307797403690613045030840203004,
  547135043162616797534215648519758509822,
  3158751262956129760100774713240063591779610726880769299406627777296925429884180657921,
  32929540,
  5835159303,
  2179952768776,
  7595608485541316775016481205869919177855825673,
  505104989184566243689503675020879611589682623969035,
  32798477,
  1982636914457,
  31094554,
  882931296853018813861856226811628395373546358837920130967447022249939333754102144686573836170655519,
  6045734324223197405744029432191013430991550240,
  30242594,
  1600140441382,
  304080278026024,
  1640221007458667114821417,
  24409900,
  6909818669,
  29641343091443267375,
  5801604917,
  104866285939685174,
  24179606720790230839,
  439204850530104,
  24183023738165688122,
  12302245766254166059142009819403284965425871622992188897733092458516791014219937596,
  788443225311027471387723737374210907074936963429406786195238862542679013184,
  1641310245149975212488513,
  32798531,
  6257276743,
  382413493794640,
  1210331002705,
  314242155640666,
  488525872368594302396888923,
  32408999860396607393503479363425,
  142835747900847970,
  1829343667189268949578754410031970147,
  1189623068517,
  2162560608819460165023962761831544678,
  444818840254312,
  97144709794330475,
  94465060997724012,
  127383982733229518444156974969,
  1982384273277,
  458055461992318,
  113888640014251903,
  30242688,
  97699446245324676,
  112479331740317573,
  1209909147532,
  30242701,
  21903173351803171282625395718030,
  6697547665,
  28755259958005888914,
  5183403935,
  1164809893792,
  30242722,
  142113360542201765,
  27695823191526373287,
  368974453045161,
  1514488748938422018930602,
  22269312167638202499112444327852,
  4717836205,
  1760088586160,
  1758589450163,
  32929717,
  6330118684901251540994478734669755,
  30242749,
  20291912725541124031,
  20215751,
  16807885,
  6244562903,
  37658012209357635661188028397531,
  6865979489695029032924,
  1630181400099595111528418,
  331345183930339,
  7767636768571442976303195607180751067615260058410671229904923458303973,
  2074875292078105941652193769187538921,
  1664681363566269112738874672222074859,
  18446316,
  2153820093152657657199259797784962641806987294640208244311289761940928493,
  20658232246690509120821805479918,
  9291470809967551402109563630664111064246946917907075087466401374697161907481570362275296540659,
  116912851088406518,
  6863550456,
  4833507325,
  80677874077104126,
  2134720181626404256233015472780380644717974573815694823618559,
  1493794977792,
  141597764501482770168178675115177390209025,
  546918224820955379544373789023031359490,
  6910212105,
  24506693839404431372,
  1886955441542058330060813,
  30242833,
  18446354,
  380896027883795878560297182278601425851911899740180,
  8194440291145673902726922613913622,
  4730877975,
  32798744,
  29857486309600950298,
  381914411005980,
  18446365,
  18446367,
  1208395003939,
  5005668575453786372133,
  1491860289574,
  381916446029863,
  30242857,
  7735965740,
  27100796202914314285,
  1766773061680,
  667439022030784951883670253255420702295841362678646572034848820,
  19931059873715419191,
  113875385090078776,
  30242873,
  5192225725732406065210,
  1351069177279450795243579,
  5919832124,
  409676950370366,
  128467236334574719247324903488,
  107582391926175741100735166533,
  4716394567,
  32798796,
  5835159630,
  30242896,
  1208510675026,
  128151045133517292319452788821,
  1490870433878,
  33257559,
  39643979355648017487514488633437,
  30242922,
  22687533825930290022099088668779,
  10178769292186120188282242884507207481186040477642414651500,
  33257581,
  400017723208692806377477542623463164120258107963502,
  8402860151,
  497624687737993951230654588,
  5801605255,
  18446473,
  8196507498686307041399115788351628,
  553369455128189629908838097640708733069,
  119212150735108879615364510042396710074687685454493838,
  1932155466083471544239933311227099281,
  1766738196627,
  32416771891183065410184289187500632075106455,
  30003149080693930136,
  452579424041114,
  1758148262043,
  1378608248988,
  6412088661960273066143,
  8511912097,
  29840528258318825635,
  30242981,
  33308923072589510929016138331483801093044391,
  8348220450023850367472337136416944,
  128052449126892510415319013458863069952177,
  4727863474,
  128848343924490438477247772851,
  31449790244170856628,
  30243001,
  1966194143902413507295422,
  29410610977636937189982619130448064657586369,
  380632843613524767218198517346288957637,
  5010262467366885226698,
  439046391757003,
  1351142961000076585629904,
  1491860289748,
  7454336780112068114645,
  4720261337,
  2213415876823075734473542602251066465448481642294542930835688,
  452283072149740,
  8511912178,
  4813191412,
  5274821539748340566552844883818743,
  29877048291119167738,
  18774267,
  1353464444671864161794305,
  30243077,
  8511912211,
  33257758,
  33257764,
  557969742723380,
  417431862213029061726531181702932458080952055527738,
  33818561789923609086587571612882813051134357071422463711897068337468,
  130429754728201230820338700345695802797113019704384022088637773456434443942206,
  20291981165615937856,
  5250051381880420202817,
  33257798,
  4798485087761313593672,
  1494016948553,
  30243155,
  171281294434623924607652492344039124182438738391916246333182802262,
  1491860289879,
  29792530677014165850,
  81222134960257371,
  29660246844029892956,
  139215856193308844562277609306451055245661,
  554158621519888459880229404736074621489165227479447671778870426426337193924296097495390,
  23083707265568438623,
  29640826167884413280,
  4727863650,
  29631198841031043505721483264560362425740121564650874938981189646693,
  7740160359,
  141427472152409716719020088388025228818792,
  29817435251792619923999563217261,
  98124598198761839,
  7592652416496388307319,
  8297135958186378553918141217995128,
  1981516839290,
  1208835406208,
  686671776459429806302955332575130708644934548407770266062846337,
  544154623628358847283210618632218048900,
  22669349735058479662268579215749,
  30243210,
  1947428915092713551230214060096013651049886753887481034688335762974020546429460576655,
  1630770890256004876695975,
  1492966734259,
  423561235877144947943242169,
  7685057753203871742394,
  42237274604559497941968758061002002031626720614873722296561395071419,
  1966729116746069438986685,
  80580442272898423507851573694,
  1734738725448704401952565634406037807130466846001385177119168,
  1701592761272552325201797753186258623304521296862164538718657,
  1504541321367841711094211,
  25047125678270085574,
  483098368428771737385793993,
  2861637012831490562987452356789699065099495854046432954771649657875036619,
  123761812639516471424280081486151833812630325420639586321962265846267311978957,
  11365140687733513860902257894205756296079793132500759060415894465309508887285925208076085459409,
  139947045729221240506246932132133173033426,
  4720261589,
  606638061612164663534583511259768799394601625024984,
  128891535652201045440335215071,
  29619993947422685667,
  25397092532809726436,
  667459137134276024622875844622454617650549599432826378585340390,
  107579534167230484696182389223,
  1457456900610187505269225,
  18446827,
  7736293869,
  155031880900214154806661782016325981140834202127268335,
  107087315348063035282613702377425584809748026551990768,
  4720261624,
  497096825461298008325162324087090037388269644446203,
  28751066991423420925,
  11231540429154598898302148737433438674265405597136801337810280289171968,
  6707575298,
  5801605635,
  212614192803568149708356933269083279565471127515514803352292772237376763820555,
  4944813962643940801037,
  2599509772888691111377188543929370785248813619456486988675598,
  1491443546644,
  115784136821209623,
  1306257280537420659456538,
  309356182207006,
  327739918104089993521691168,
  1760086948387,
  166408607200690857466786249239493135618010563361792920191273826867,
  115719595064130103,
  22772281,
  448109267023856003520861432169721592379,
  29118476508091480636,
  29397780083961001594704403552076705774139965,
  411602963793910600763537983,
  418899274239888171312612181704386557210833593596486,
  1491863304785,
  105017879164167595264437680402394628323927,
  1766771751536,
  92329000083819879675928232237344004602484,
  2217130436065920716973382353508025442082443786870,
  39421399812539509968653604589836595569872441307058698871,
  5804620408,
  5789809273,
  248075063346061876731585361828179666800998241269320314125696973345323822440048276373138236994093326282503885519482,
  7860326785654354392658540114807920587873483391,
  4730878592,
  126203014927531618615081280725933902555848212574468737,
  7001905407577734583082923446401667,
  87061691301261130031526083204,
  30243462,
  1765483248264,
  6277625913837948140173,
  2463585024488204838635734749192747665,
  4298406546,
  382145805384341,
  1326496447126,
  1351611844214596873278061795236018839,
  7588187197401325664920,
  113773406460344988,
  2281418206183619563927139053568054451301607111325,
  24182463139273079455,
  379946125589152,
  405062665563673503001246373,
  483096285261251445696199334,
  1209468746408,
  6254590636,
  30243501,
  30243507,
  6867745471,
  61085051775919095658416812595230616876008999973382464789425555289666649911642054988388363101696083393227,
  88608952661254040065599109846,
  2602532207513513447256930778958385627845226078073851124939481,
  434660669196044003187798249962944887518,
  483095515219136900789402335,
  30048708193584410410008725332777656890784094653959695570057918249696,
  28902403063233673955,
  2682317474863346816775298380013300165194061154538496538016485,
  5835160294,
  2125496718958093250996589689781582573,
  13933535799684388034858587720715427503390559016427111979276374854363341368791235311,
  130894465596009306642681832327515804467144825408944889,
  5249943788071650491130,
  1484176325373,
  27541830931191436092776365325055,
  387578795553053637299305219,
  6254590724,
  1757066918662,
  409410674195208,
  18447114,
  573174250428993469826038539,
  439372399606543,
  637372270388658045737008271039734610058673713871633,
  463326807881028414685050095775772518134232505007003219990772500,
  6908902165,
  115784180878113561,
  450445801948052326337575707,
  452292083350302,
  1440346635040,
  18447140,
  6908902181,
  10605775498620243304733365257009862565189417766,
  420102009687425923682433832,
  5836077866,
  30243627,
  47833241514806387064057413859836232270331199664725093294489207812251672886278956,
  5835160366,
  452536474368819,
  18447160,
  115223429916162874,
  24075864064350661571083697125085517887142716,
  30243646,
  33258309,
  1490786548551,
  143579482479300784871877295911793487803271626878173943335281886136475634534226783506365257,
  1498484732284409083208020517210127179,
  7740291916,
  6412197733238711089999,
  6417420923903879510864,
  140237710630003504218700071044557812890449,
  380432418486107994390897546529777220434,
  33773906531469951868509295449339304546867895929840892756,
  130806027182106902807206803715400596092523678654888790,
  30243672,
  1980233251674,
  135108890250904825920669121371,
  29638008389083167581,
  97987160318901088,
  5801605998,
  311556082203505,
  4727864178,
  5789809525,
  450638053473143,
  23835870904639329924756615615550382385953657,
  30243707,
  8449800008919952237548684021365630,
  1798886196736716889314443753612278590204429692072623121398656,
  20275263081861643149,
  5835160464]

def chars10 : List Nat := [
  5844335507,
  450048573406100,
  438814020303765,
  668584188945919715891770820817673836567544628381788730155105175,
  18447260,
  18447261,
  9701074127322851888089119021273949850180947501356510563102101597726105290787027873,
  33258402,
  30243750,
  5633833895,
  30243752,
  115786653672045481,
  17791914,
  29622808463776840619,
  18447276,
  403914634542061994411531014132489491993361554963373,
  6094038004669096789288503327061595026664029105,
  5840141236,
  379723944131521,
  380229593496518,
  138266708167920254601507315244833476869063,
  8511912908,
  7739505617,
  29496003478427368403,
  1779623951321,
  30243802,
  4548295645,
  20216801,
  8511912933,
  4720262118,
  7740292074,
  586248409137978620566348628880256673873637909560302,
  385444744887281,
  25011097433145965559,
  30243836,
  4720262142,
  130021262831544308111883837209013575252999,
  31095819,
  1916603890700,
  30243855,
  30243862,
  30243871,
  30243878,
  6407959987276582845479,
  457621670296618,
  18775088,
  125676893901192248,
  115843554472524863,
  30243904,
  25045814469860097089,
  128052011045976346809614480077496421809229,
  151531976042386267445051834206214718148006540221888919004721403986694056082547,
  5837716596,
  2605748150709942661168486625263643450502514017624345766624379,
  1484332301436,
  425972886635225297834310781,
  38740491769395754404072473556114588740508280122479574153,
  1491860290705,
  30724900588028435859577467505575777820834962,
  1515273682069,
  465577214810767017886000506447061343698292502985879,
  7154511131465006415519981193755800,
  32799900,
  1491860290717,
  30243998,
  88390988400497915814546734239,
  30244002,
  7150905879083855991339656995241124,
  328169427825717040004037797,
  7589992900334150319274,
  9909161087408346367995444642334441357166226173520317611182,
  503613518839897552406019249,
  16809138,
  5789809843,
  390916807663910412848495801,
  374471726628028,
  18447549,
  117205115296996588366913579964796449123195475660688379588194738359956638629054,
  30244033,
  2158023179461,
  30244039,
  30244040,
  1783882577968427470855120180605352876699453258954,
  18447564,
  18447565,
  20779637105860639957,
  2072136224703582333531013633665498326,
  30244055,
  6410153099007447039193,
  425808021482639526152862940,
  1620657783629037698461509182444305631,
  109049470322941937090605710560,
  7517863144,
  495072724024559,
  8430882698116698214052456698488275110072549701735323203340933067799803,
  382365083925770,
  52010262941897982410627526570742736287245656213792790138039098568002871324409120,
  590964388986654961385445734615164883560150175231083454097690102959789939261230648322711447439441186,
  2865102590280645908781296162561277525000260524664120544431337306687831335,
  131183280941596147026568441128273326028950845636836651,
  43717046903164281139769459129191942531539168592920969925657785302319,
  450151297650323200839220590,
  30244215,
  2040564448678,
  33258926,
  1493800615483,
  2307148473653220627558155625148446543599933619777,
  1769029205575,
  115223547818049154,
  30244507,
  419762034656796787132890784,
  76380275076857505,
  44606522808026611226600709148469701438601396812041108803202661727487493565783871106275966626,
  454482955435683,
  6436518341514580662131252549673491901418405540,
  452294338444965,
  36617763471033707600853822711343105501067765210948940534241020326429854778501407572073348774,
  2440035629054811857477868496955375806497150078032462581694119,
  1185664302760,
  30244521,
  1969190312579886904898778054702166434708040382338086647125391482157629098,
  30019715670218473131,
  482504756617444060823125676,
  444745205382829,
  9189254667742577300045686985718843914072391343,
  8390278832,
  89248309257054094359172578993,
  6583231233809741118271280759013042,
  129954407723609404776315353703144142840051529573461993304295789990061121240755,
  118784989708372166059881571001121230561155994394151497938492489397,
  1664786879874820708509834413119995574,
  5733086021994664922594456914997189992109276855,
  7595218832999198952470599093548924455517519544,
  8105406952869138065260868443668153,
  141257227115728385180657489861208870321850,
  1815303201100901459335557200132079293,
  115843670469344958,
  187311512150325605069333007678776999836647396905963041179060561527684447436479,
  450369420885696,
  5801606849,
  5835161282,
  27644139167413953272112529102584674541300158213782011587,
  572614616819326241447973886133774868975326268342575937814190898986152656580,
  99114737376788165,
  2581007534037997385776765280805949526356120164786203219436639453873211924433398759110,
  30063664933877724197301248781719542602923948988670000131644576792263,
  107929061906530654489001958799972418204316741780602568,
  379442081726153,
  6871321560226945334986,
  30244555,
  7739506380,
  25054429155994863268444644428069266171133645,
  29658962614157606606,
  4000882647621119445729838927128633654606299930423979936345542910160827419092607100727931498765285903264480975,
  30244560,
  1361084100008883501956817,
  98646479689615168110803386066,
  684776559493797982753546641410174362997533751207148645651080644976644177601562402193107,
  452283946729172,
  5710783490821603040095805375178762087770128085,
  32800471,
  552461533890870548216191836491104222936,
  7752236363002174318331268031125068808871640793,
  1185662664410,
  7639140403800279645915,
  24963109115722868309377711093123129073716559519550111452,
  179606802069522717464107952951503518622253681626775692480931659485,
  8915834505457720131294,
  2174627340366979437593455931420244116954741654681674424798627728060449629549306150623,
  30244576,
  99250008453119713,
  1362875094114148535598818,
  27233682366620657219572842978042806801825507,
  5843343874682237581964127997165285,
  6863552230,
  497802126552896155014826142680222217524855375691495,
  30244584,
  115165424955546329649509924585,
  2099864811752165421059039272963243754,
  4717838059,
  32623756859861320901501014791767186112846406300592275181,
  453116298297070,
  5336825583,
  1987323347435437169750739588593843952,
  32800497,
  1208428560114,
  489996758765217775969570420655870323285624006213363,
  941656231155086454453754833001847096451307056602809110457212282301354210042518061499899183979855604,
  462197825755663218714590399639624326937739835466317302727737077,
  6190691213896398372598,
  24895544921133711095,
  420230196507039425449524984,
  31686394,
  5385191163,
  2376760382973605397044178245918937098434693857020,
  28776681488573169405,
  5837717246,
  40760943276000608000482610620253155395607136499290932418774155454829461612625663,
  79194908228091648,
  30244609,
  4730879746,
  1766771752707,
  87920863360745220,
  499726135739861518239301381,
  502135727499130272550059782,
  1766771752711,
  125677457444470536,
  6372789407458843197193,
  30244619,
  5835161356,
  81164957732470542,
  30244623,
  4761419537,
  32800530,
  10031723478012368730769466981333855957837370595439572975379,
  87983419093712660,
  464173588737020008709423451665579015957,
  583593712226540920933539696258584864266710704291606,
  5836603159,
  149175473764709934040668691354866209343510506626330611037492576024,
  25119771534437220121,
  7371297961826223292186,
  1714779160347,
  16809756,
  6970779805443409098794146191527707868506193693,
  1490786549535,
  108253317516119639270204541102426749697824,
  5835161377,
  1210332774178,
  30244643,
  1186460565284,
  490650873134885,
  4730879783,
  1665140613187931985313576,
  1973178342984606095167835780551641281890727788329,
  106807828573421021913012731690,
  1340452667179,
  309630027530028,
  72158267873460013,
  5175017262,
  5835161391,
  7371462965520720559920,
  4311449393,
  32800562,
  30244659,
  105412407118147341318798737204,
  5835161397,
  88551830321348669325117587256,
  2150161572672128014595055807011934567355018149690,
  6897106754,
  381596921659204,
  18448197,
  625544322208825242809729670954834558800,
  9174977989255230699309924354554653529619594849686980863516411891908433,
  97729058360360788,
  543989774205943272483681207389916266325,
  12222575335299482472362156283124051835055341427978451264813077241721468674125823831,
  1779706986328,
  6334376262022258906215156175896410,
  5801607007,
  28758187703648616289,
  5703843412314091859115736116264802,
  30244712,
  348625673077678357263712105,
  139883382874836116594587356906386280251242,
  510615092185727112294353143056136997689345090813806,
  7951646577,
  7273252812389925273187167029722994,
  30244724,
  4717838201,
  30244734,
  497266873357474514850840449,
  10815478733675572195973815848810939765266839157040531594833017263718282,
  104327093468049577563544846220,
  156165152025599261539817866254513875603490676677468059835622594103019988244376777920042268080472278560854331260814,
  25047179283744259988,
  86730135823810458,
  30244765,
  39031526925413383401449717864437386858233758,
  458054505693087,
  31631952049446458543429800722337,
  2641748361083905915436013203249570841109257959604107941221702865493690108594622136228,
  1760854376359,
  1514514513839,
  8507719600,
  25101266405014863794,
  20873144,
  425973091492994829260586937,
  30244796,
  1737742032651461858620960907259823059712055606389391213952957,
  115716294658719679,
  1815115429889404244574099236896538561,
  128858626566584000829476995013,
  1493803171786,
  19627980,
  6504303947922070470606,
  464734545210938215235014160890923286484,
  20217813,
  85597509114399413599846301656,
  1494029664223,
  125381302496322526114232099010302139506169724851093472,
  1765736546273,
  1768676884453,
  1221311823846,
  139890078989701877976493789168135369883625,
  7740293102,
  1481764362062819797257252888930779120,
  1766174523377,
  409402117816307,
  9121655612526251552306960614206730413289013243,
  8547139328059227646713431057888568932853879062039159734268,
  7774040920619848930322221455627843621845499904,
  227541620694618652786393941256103810363778709958367498026857487874989067270405485108603033977892732929,
  9425615321777613656180912991341813396345111512506594501494249694199811,
  4715413508,
  1636297694479692317162134675716456543746352840709,
  116630806954147846,
  1981482500107,
  1736323392031499543702985191167423556238359718604303644393484,
  7457121365285546524685,
  143294062705958321851084806329437302341649986773602544459632902160,
  4716396562,
  515908430554004475553933059961749340181,
  31031318,
  2074740551806935390131010739702628375,
  1630915382281901471727640,
  5683925352202932682777,
  1485209042972,
  32800800,
  8402862114,
  33259557,
  20480038,
  30244903,
  30244904,
  30244905,
  5183406122,
  7741931569,
  143621824098570632765791036679331799144637378477142527138388869171,
  8507719733,
  9284874088577315382384003999931783729796317238,
  125677015263379511,
  127309050668595012792734875704,
  109931616581990732498754266724917451980859,
  281869496385597,
  1477615696782606772500771726788624447,
  1641522620838313927082050,
  1766771753027,
  452294251675718,
  547108744260568841055988451418725187658,
  1641344346465662093525067,
  1808308395930448559686193804911420332645942633022576028909644,
  8511914061,
  6241157202,
  44927648686437027636110797470859983892940990433418979203031053959597218784903252,
  1943112798195475329351768,
  605909291493227491916715467453870343929588566229082,
  1981309550697,
  1810034247537922639663997252433641578,
  2177557823601,
  6905692287,
  30517131941322058766957369098321627241199181936459677827,
  4717838468,
  135894430102649243603496926481017557450886,
  5762788101973298704512058629456007,
  1715639042528812254204705907048123074205052885687173002133641,
  444585383395467,
  105264288420999075602487672972,
  1483105599635,
  30498866688994811325583883145922123226906774,
  1886438939152233185050776,
  115725991329665666381293949724008453341338,
  5789810843,
  5835161756,
  382907891645030359890258299890718834845,
  1758265704607,
  500265474782728174043317753412845142176,
  138028146166464092587354356914160617596476462232019395224853381281,
  1885482385076324276994210,
  27916649590385508167425413709988,
  1872638325282681028392004100931153206088016935556566874671575399982465189,
  731139372942994388217562525234549534006575298609321,
  427691121148074,
  5801607339,
  33259693,
  4311777454,
  669486597210755186751640772840082385540607707926736231543898287,
  374491508736177,
  170149230747024902614702641656461393913982560410368124374820094130,
  97758789156569268,
  30245047,
  125217586375037885960391590074,
  1513335128252,
  115151167089705149,
  315043829239561654837543102,
  2156409987869462671515407116140118207,
  109143535079732880535082614626741791064256,
  21518975215168145276977425187009,
  30245058,
  34589467756119051755961678659779,
  115787762846499012]

def chars11 : List Nat := [
  586416829416522730283545392783362652038954426663110,
  179393143477212777284000472765419092246893517954398109302565142732,
  30245069,
  1916618038324856300284814600994797595866919698638,
  132135029502769473122541134304645396136150,
  5835161815,
  30245081,
  444587518296282,
  6867747035,
  8877126843174707134079133135407391541304905299846016109883954876927242769872224476,
  1717908898013,
  7648416333495809966302,
  2062607538446019484815477514674534507750977792734645971586429103661351137,
  1766771753188,
  20256799540387741925,
  29497309543117390055,
  30245096,
  30245097,
  30245098,
  1209299271915,
  4730880236,
  18448621,
  1765665308911,
  95025381988991216,
  20759795042990260465,
  1323187142899,
  18448628,
  590835221332152868720885216146740771950239556403446,
  9011296073416928560172710399364020287533842680,
  1942582816561018317668602,
  4548296956,
  556309901749016820565526141191213068276891191210378356659826992276280085695282000724221,
  20608747495670539326357671346434,
  1499245165617416869913204498641682694,
  2375391619532407458926914729054276830150298009865,
  123505819657400160621063405834,
  304525429670157,
  30245134,
  552102528108886603768584589798710804751,
  112477123672441104,
  27644503149359931571120897735074933434329206882389557521,
  1513335128338,
  409679097856275,
  1440320684308,
  6411727981464268669206,
  5801607448,
  628739731175817736546744549669070817871241510641265745866621210,
  30245150,
  22642985,
  33259820,
  97699965284483375,
  37131066971925880407026047021896324260666240345416343812956344320305,
  99247556026794290,
  6278583535178606592635898665367390718471632437996018041144,
  1909520448504277939880254,
  8392835398,
  1757066920264,
  2360408208935621138676980744673536778308587258186,
  24179642889003499851,
  316767611421004,
  8222951330422413673226097192949047749764047496281743130960,
  95859064992006481,
  98543859027247443,
  1769814823389265264442420972643516756,
  34571821310411778721436239757653,
  30245209,
  7954071904,
  502986620797522971094712677,
  7735968103,
  1491863306601,
  1722707181933,
  1532875549135030883811694,
  2010292078728189445790751744580981418836329333104,
  4720263537,
  507709581459828,
  36257964237252007185464917453976475757281657,
  95864877357826426,
  87040940079986330683295433083,
  16810364,
  8633464907453661405132007201109431981624538045034702078334,
  114676095518232089392606131358737874125183,
  6278816307364541071744,
  18448770,
  6867747208,
  6282239007509148434826,
  33004737919421226497278364713359,
  7740293521,
  309461249589656,
  29478721048662344091,
  348721072199566599908852124,
  411736333372417103154020765,
  30245283,
  7740162470,
  4724677983524195959208,
  25389427127509221811,
  115773469651009978,
  368444855845307,
  1494012756416,
  6908903873,
  553728692068957928346220099469305283010,
  7549780419,
  1639126415281206638969286,
  104806656331776458,
  7735968204,
  120069602911014081085971778114803967033827,
  7362077970497279853031,
  661091193952614344871485709873911976415671132260336198735976356142594561926901152615013592880021994,
  1440321602028,
  1578995498276081819232488996694000517291266048493,
  735647608708159765496623177495066314508617031757950968470418755909398462963,
  10315298137639891354211879427810217693232544565668011670368244341178868,
  1943631141615276943704571,
  500870043328158728401355260,
  25044340487450493438,
  1208428560896,
  1492970144258,
  30245380,
  6195393603573561000453,
  29137900427890229766,
  1782723318642195458832361441122597888036139794956,
  117942997815228480357945128892992020911257858424951216518899270157,
  4562780688,
  6972640176164619960682095418679190540869451473110702260754,
  5183406612,
  4719936027,
  6495100206841802359324,
  26451682281926013797674723001549260212212803510424142366,
  118622456544567911275239422693884303082015,
  30245409,
  18448930,
  30245411,
  33260072,
  143215333678636192837611246754801954526457785034957127220591165994,
  452293566235179,
  7947364407409654830236259510347791995174116401364802241068,
  33260077,
  425067887570632342381363760,
  7643541984961013318193,
  4730880563,
  4730880564,
  1641531462033568702235189,
  20293039162306167350,
  25013038618785776183,
  452514999534136,
  444070921742559238580717706649621720874443174331801864460927545,
  5801607739,
  18448958,
  18448964,
  7556236945310738907719,
  30245449,
  5804622411,
  30245455,
  320934298157656,
  30245466,
  8511914591,
  4730880616,
  115786655936119406,
  604919609133159456092641191921218284063743799853124783824037468822106464024778378715358720864322159,
  7049760991811383992729142023979632,
  172876047644022929234515025634110346942755314508532343408824094413949628940914,
  2336234120906244231179287439749620571942349210227,
  30245492,
  9391915345047618540892065176814532277427303834288543306483261276521082,
  142806336988217981,
  1495960759934981775948189527531291262,
  1483306926719,
  48728788216274444484227324771951014955290706573570841258056872094317496470817494213418648194,
  31556232,
  1766774768266,
  4720263819,
  314599259341453,
  1491863306894,
  1492970603151,
  5835162257,
  510220809283083180652188850068918814385458653004434,
  4799955607,
  8511914648,
  21519615072030536354805164114585,
  32453720433790017061013696709276,
  383298261741086154556977416774719472285,
  20218527,
  6242796193,
  18449060,
  7592301984707019113125,
  137517355645409972304266550422151643103910,
  1484332303016,
  452291628597929,
  1494570599082,
  18449067,
  117525356691349465369328447533394438095532,
  1226734928557,
  115719595294950062,
  128862229958176087287258579631,
  30245552,
  11362246540145498715755594304190457040122413078342099844766181900611625974299543484525071401649,
  119210472920784384308061536176586016476024433930896051,
  4727866036,
  20436027920040559287,
  498513048200825907726353080,
  24921402853333631673,
  22629723408712328120040628191933,
  5838176958,
  381640492417729,
  29480739475096830660,
  1341716678167651293954759,
  382190281786056,
  30245578,
  4720263883,
  1766772671180,
  2008747586757198753744626046851958087265431426224051175064269,
  18449102,
  615044566609608656720471315307143712976939517714625520927146703,
  8302903648699502514543736557044433,
  97764678327829202,
  29622877328854581971,
  1353430340601009749525204,
  4720263893,
  602687074685677836184970899704598646890189381272279,
  7735968472,
  5756829595479780131547,
  1230845346524,
  1933598418679322293994206,
  8338119068180623764905722803159775,
  22774496,
  1491860292321,
  309629996991203,
  18449124,
  2353174129229503383345324894758095631121360229609186996915835665796989669,
  9490071825998813336502368551509866871668618012422836050617310728192742,
  1482199171819,
  1357092419062277745509103,
  206444731257317612813004472736880456458429181947155433697857215012256563851234057134179057,
  117199528263385847,
  1943837195152250694632185,
  6909821691,
  1104142172929,
  107937887962534286950115031711620469933749075116262146,
  27309766649479670718985976897748740789390055356424094467,
  81241372708406020,
  6347142731197835739914349819774353804841550597,
  5886411526,
  30245639,
  1484332303113,
  4812669708,
  29154924492853183246,
  1767361970959,
  30245649,
  7958266644,
  30245653,
  97209590203712279,
  4845306650,
  8511914779,
  98405582450164508,
  1942453216124589697565479,
  2157914020803637282171318620311618344,
  28142494322576585027246593748787421001974571,
  2062984208715923274826540,
  18449197,
  6863553327,
  4724458289,
  26968883,
  6863553332,
  1815221922481957977416931589043946293,
  38755236113673617492678301526114695440520414531660907318,
  6412206600407603577656,
  108511184543667089703526171449,
  33260346,
  18449212,
  80109712206168896,
  315129490801475,
  360374475910113024196787290537430254406,
  6911918919,
  141024294685289433952548173563938716185225600988427370601792220132799958903712026109510473,
  6415833658876215919439,
  32966840536436020136877011272528,
  1766771753809,
  2600959201189539510286323558099172357528526938114138794722130,
  89248177085953828846367769428,
  115814141462807386,
  7740162907,
  1715201606492,
  1238445425502,
  20652277053774922591,
  457534701405024,
  668875899570561536240938546917758860087127156858719029834318689,
  504649333318298879296231356384293611095476583719757377873183375261877699427,
  81163148477498212,
  382199696098149,
  1768676885350,
  25047614020954719079,
  18449256,
  30245737,
  1513368683370,
  2355418503368310215687467152115541927445412217707,
  6878364524,
  8320311373069639998853358775734044424889388351074134392922254868054895,
  127425560710646719968829010543070483397205239677944695,
  18449272,
  79758417179804539,
  1757519250300,
  8511914877,
  5183538053,
  4716397446,
  1952055038021384833565577,
  379663983745514440609302470394331759502,
  452024349852562,
  117194315034887059,
  7583816635666300371864,
  30245787,
  18449308,
  1960747921975305039676318,
  6402879423495153877920,
  28776202379705549736,
  6911919017,
  97845648723510186,
  2864234882613399850462414568145796763864869588915697633496266031353004971,
  30245808,
  2308580906705605322900279705527502680991708447665,
  30368287993354490677210887767546437870257074,
  97688419584148403,
  18449332,
  1483306927030,
  139895432990609249879175583327224404935607,
  30245816,
  89164326163698093223164543929,
  1886006143300893662675898,
  18449340,
  97579614224064211308719037161838164542397,
  452291630695360,
  5314507467637598684097,
  521288159298501,
  6868753249934476149703,
  7145676291755108619024058709345226,
  27929359355043591829642431529932,
  1490870698959,
  381915487765460,
  6863553494,
  6908904408,
  7151969080145109259799114534254712924164162524,
  4730880989,
  5789811679,
  6863553504,
  452010870277089,
  1492970603493,
  113749533407151081,
  439363779134442,
  30245872,
  27759294975157914955752696153073,
  8547649358658341071504955018783019546576197813002221356018,
  5835162617,
  79265023148065789,
  1483303912449,
  1942541011405920842056707,
  340257640005418657659847684,
  33260550,
  33260555,
  377337430945596239286404108,
  5000894305655995466765,
  7562304629203122029582,
  5804622863,
  6908904465,
  25373456613740741656,
  450082940748828,
  500018866744175397290214429,
  5789811748,
  129191775716510094202043994862325332678736575698937238093526582773958888162341,
  97765235061195814,
  5507870401236381785135840589743143,
  33725403699346661413654848094165518353071207869578970152,
  5789811761,
  452294337987640,
  1758136468540,
  11164826590390137586622797715865136776384778887791037828581483972166717,
  29144019826921669702,
  1492967588945,
  22643798,
  1830838574087436229945501705452946519,
  33260633,
  5827560538,
  382966061620158641921793145623237330011,
  5804622940,
  106960562232242769190467503201,
  2085368753182686366123602159515305059,
  1494016951401,
  1968546640082704822535275,
  128271938641526459914224174188,
  6908904557,
  120032718048522138701657466697830276629617,
  97948452960371827,
  29984573918360994933,
  1490789565558,
  7741932664,
  382413493798010,
  606667790884463888238303690226092778448273742201986,
  30246023,
  30246024,
  31163529,
  345847694969525621457912971,
  33260684,
  30246030]

def chars12 : List Nat := [
  455592101381271,
  166783226404599543310706083629966849439963835626212443652036109323574670598566714642695321,
  112436170077078684,
  2180238640289,
  1768907572399,
  32968078221689014223036946810034,
  7735968948,
  6383976441470791203823304345019875781254939832,
  30246073,
  6863553722,
  1490786550973,
  115784180878247103,
  1769448637633,
  141423686257719290053168665265102594344132,
  18449607,
  123582895816426554110019994825,
  7486735562,
  4727866573,
  30246096,
  6695781585,
  1765719770323,
  18449622,
  30025656643794153022452118723552104623134983067606574840313512821981,
  7551175180826055509215,
  8511915232,
  8512373987,
  5882414309,
  17269990,
  2536681191208824042877757946137436632745036864288169025111276,
  1209500665084,
  116699230631462143,
  18449674,
  87952242383291665,
  19920715385916392723,
  1641587292947870375314711,
  5279693277963334567204402096735514,
  30246175,
  88551833415958589575320536353,
  8238305342392016078123,
  123520939499276879464721122604,
  1767800145207,
  31687992,
  6911919417,
  7643769189151907874106,
  97843321662702907,
  112479218333091132,
  8855437128611339129325365833532733,
  79152301740033347,
  5801608520,
  1908377579106491208140105,
  29513385076873332042,
  5838177622,
  81092950466725209,
  33260894,
  1207976035684,
  1482100933992,
  97842349111870834,
  29472913470960015072167527220596,
  18449785,
  4730881402,
  6901302651,
  2238874382509579699848574,
  159661552027967294103600198382921988305866052077799670071649404292,
  32802181,
  25119279204730242439,
  4833510799,
  20634184643658876315,
  382196688586140,
  4727866788,
  5835163048,
  6907793267694156534773636509828522,
  5801608622,
  449838120011183,
  99137033669477808,
  1491863307703,
  5802395065,
  4811752897,
  497323546368304676917904841,
  40774794069727099554708010494949375302056438840282233780598814392734741321985632239814280655,
  4298409424,
  1209374705107,
  19553250079816648149,
  97842899857540572,
  18449888,
  35204376329255982293757748024278624375506404,
  24903526182656050665,
  5848831121988296630911370236954107,
  18449919,
  311829053801989,
  122828781895910929,
  374335832950294,
  18449944,
  33261095,
  5835163177,
  382198216951352,
  4730881596,
  3134904422978748193464491989127001910428555661024127016531113534673608767146821256782,
  7548491063492110616143,
  32443492653924062802155427628624,
  2151326949667235395600556419473245777,
  1495068083796,
  29105820585278155914927284251595559309033902961449497667357930653274,
  1475130707167813679056634654773446238,
  369003656349282,
  34982500730405031010910212750779465667806827,
  18450028,
  30246510,
  5789812337,
  6325055874748314095093652766870440197356095097,
  33261178,
  1491860293243,
  1490789566076,
  29117054788766697085,
  1933219903517457408165502,
  1483303913087,
  22309013256299233778227253380736,
  1910760972691164559410817,
  298098984846978,
  29641453983659296394,
  5835163275,
  112482621218260620,
  1185831421581,
  8511915667,
  125050534068145678950348719765,
  1758136469148,
  4728653469,
  450095314732707,
  1758148265636,
  5804623527,
  6995805864,
  4728129193,
  8511915690,
  4845307564,
  18450095,
  5789812400,
  4720264881,
  5801608884,
  4720264886,
  33261242,
  115180938730964672,
  5804623556,
  1757075310278,
  9736921457675204091460202730680813131415520967,
  1491863307977,
  1340903229130,
  1498627027605886111692627879816431307,
  115854834994349774,
  4720264911,
  1758136469200,
  5804623569,
  6863554260,
  30246616,
  7458220846010578142937,
  117261880440489691,
  4730881758,
  115719311814526687,
  6411709939852846401252,
  30246633,
  381913219827437,
  430109410935962789606258354742637332206,
  6093571824,
  4730881777,
  18450162,
  5804623603,
  4730881780,
  5804623608,
  1208392451833,
  439341219940094,
  1407524401869708488709706350572177152,
  24962780244753299491642387487726684962653954,
  4723803907,
  399783950386951,
  6897108744,
  379969567557385,
  8511915786,
  8511915789,
  79233393391601426,
  382148932110099,
  79111344270771989,
  1324344772375,
  1757180167960,
  303574986032922,
  23661237242339795253847680320893593027446556,
  33261342,
  360659497971638499039041938719011079969,
  1491863308066,
  18450211,
  5789812517,
  30246697,
  1715198592814,
  30246705,
  8511915828,
  8392050487,
  1756894955323,
  18450238,
  5338597183,
  80659601985106615069243443015,
  1758136469320,
  411457718361615621147952969,
  18450252,
  6873383505326677591886,
  22644563,
  1599222679383,
  6897108825,
  382191881783136,
  8511915875,
  8507721572,
  8511915877,
  18450286,
  18450288,
  18450290,
  1765736548212,
  405739145052151170861729654,
  22644603,
  18450300,
  5835163517,
  18450302,
  444894109337474,
  18450307,
  5804623749,
  1491863308168,
  5804623755,
  128940030725332463685267190215988317617160241080418441770084135611764951320461,
  17794963,
  30246807,
  1757066921887,
  309621404043176,
  4730423211,
  22644652,
  5801609133,
  381638460147631,
  298054089017267,
  8516110261,
  22846839411799387740315175192506,
  8507721661,
  8511915968,
  113884508221835206,
  4727867338,
  18450379,
  18450385,
  455328157763538,
  33261531,
  405667184286351855814674400,
  8511916005,
  4730882026,
  33261550,
  1664423173589902374373369,
  117110483963185150,
  8511916035,
  5804623882,
  4728653843,
  77825898748086293,
  1758151280662,
  33261595,
  22234023537960388641,
  497299206482513086359046178,
  5180852274,
  1440308889657,
  4730882108,
  138889291015445713441046616017895327014052914560882254910590650432,
  30246980,
  29658869401522571333,
  4051027398309275631477035077280704678552787837018162294796310178305760067829434960308458675817902886616488642541245466700,
  499957758042816833944667340365414828109,
  29837331442849203313825654540372,
  36024951487525599298617891976931619414811929157477959767,
  29515357336572102745,
  118354228214190086574615794201147360577774090755327724120153557089,
  5790140514,
  27405187579022493090642357762152268663284309712531196003,
  155669011346028383617630215861073754371052917543438437,
  2599506709971542848982678487545564816528445816548993149470824,
  2179055847529,
  483084521353214504266729579,
  1942670094310601460910188,
  5268531256379446233198,
  98192233896091024166695108900095796742256,
  382191110883442,
  32441461623414567641704363034743,
  368720607021181,
  5835163774,
  1766771755135,
  5185704794557823813761,
  439207017810050,
  1491860293764,
  1457225101322201205737605,
  18450568,
  140662002742180838282428994257484819040395,
  19570830996915456141,
  304523720820882,
  29235649432575394752245142622786559212619926,
  99248354878916764,
  5804165282,
  1493797210276,
  30538795954224981196826039051873077359184043,
  127384060733377346641404922029,
  1760086821041,
  26511540,
  4730882231,
  33261756,
  1562112808915035738522654398064614108521685420225,
  34785385701812657062483850866748649207269570,
  2947513727401532926933351489794413199919095804180125110375960697751832773,
  309257397962950,
  30247113,
  30247118,
  30247122,
  452293801117908,
  33883382210394007914714253772444586871916757,
  345222021960252467569199320,
  405087463064644683399071961,
  8511916255,
  8511916258,
  5183867107,
  6407960691241045821668,
  22644965,
  1215904581864,
  7740164336,
  1324812110065,
  452293784340723,
  80039618339899636,
  96732318705350987451841284344,
  126767151836727322680495474937,
  1492967590140,
  5802461438,
  1208393304322,
  4307716362,
  20777878893767526672,
  29549807800973322470215040403730,
  6699976979,
  6254594329,
  382199930784026,
  439784593852699,
  6863554849,
  99248151945906469,
  5183408426,
  20220203,
  30247216,
  1166423263540,
  7586554896802110867766,
  4548299073,
  140910926917042857789882619597806032226628,
  7740164446,
  497266870399916663174170975,
  5835164006,
  5804165499,
  184856230668198793900236618469537093149759672566446934878776194360522007839795718851212097245589440895,
  9363480905063980299799316314243824004973147190119966967316830164912513,
  452293797054851,
  139335163535210415245255567052506643335558,
  40784307781821896630715665184324311070871462187335152554665081469107448925424065,
  1971291251604785311971471129130251299710400249870902653901998678594914754,
  527831628491808639091678608612261295778339709487688038604451373151766393397429510179268,
  127495863981435095758985791941,
  28815343171970674290456778055542028870607223663772209594584039459270,
  30247367,
  2161062508011773229808512762293553608,
  33582494412842654451120869167649114629929034244712335817,
  20220362,
  30247371,
  5835164108,
  8513685966,
  32934351,
  6412223066756925917648,
  382030092470737,
  3150296568813888657215027719003268486330279060515032396417281989565654738099880167890,
  30247382,
  31099354,
  30247388,
  1599237032414,
  8110622564882160793776543591441436414732387661792015457686602693650789222122293731,
  17795557,
  153989683385965605402356134162112300807443768461789670,
  24414699,
  30247407,
  18450929,
  5183867379,
  173067036161840995692234997849213785407277774792861145751292892757092478847488,
  382200471718407,
  4762339902,
  30247496,
  1950901954320683291609721,
  24064803026113193010331512210680614720473737,
  309354497870474,
  2100803424635281880734305796897540755,
  5835164423,
  33262374,
  507255975096874960276940218852038616530776204348262,
  4633955180,
  129185013365459478313044081049068614185140068627891795927150224743619880061857,
  1775694625378272539872162,
  18451363,
  26207903209047101520432352101335543912700945623567076260,
  97733733002808229,
  1493800881062,
  1618354670503,
  346369341155862811436950579536217803688,
  1634769899186864856718382884722569858952409156521,
  5175020458,
  115778958616529835]

def chars13 : List Nat := [
  2292835704709297503412256899202742693606618336173,
  103481065764807886915013593687479197738167770025659310,
  600861123455032980673281801671610203663815738952623,
  10483055814642534111717148819900084698932559680189978236079724692081584,
  8910659601413131940602322801658445386759834546,
  127308750188860119986243668915,
  20220852,
  29854645,
  1324800314294,
  116601277506292663,
  2602659251710585131626166995592325926971780927180488631028664,
  1476207147962483105631161,
  159863146906921313559582404794468632597941466324659839824391932858,
  84571989347507551776355683260,
  420174023760327387240500157,
  38725114124972205827961494455226045292617918624464145342,
  2375321630679202422502754508815221529121284983743,
  22514677720618273728,
  624485683439566970431181587342452369407938526843264217088887745,
  7740165058,
  313754269879235,
  586159668935420692466768178137069836723566369082308,
  6244568005,
  514424284629619880272820791165326382201684717069593698887109574,
  670394882719233966534599149618627644360,
  30084895110080519392178975477201910732458953,
  116545668265287711614485957578,
  20220875,
  6257281996,
  579624299089049879011816965900823268301,
  7747046350,
  7546923783027978570703,
  29367941178503268645120954563848093524331473,
  1766771755986,
  5183409107,
  30247892,
  9257628029683260855537901286194169433203968981,
  5180853206,
  130411801384311385237237565417056174874786598722571223,
  1341979397080,
  4311124953,
  27328675426300634855078757057143084672004002225308497968280681286618,
  6273006587315188173787,
  33262556,
  566650337181524186540859433789196225707415890148245597857614813,
  92715615899896990213348821982,
  5169056735,
  4717841376,
  1476238683644704436816865,
  1812632261500814358240151762862640098,
  115786614388132835,
  86794457721506788,
  32590968828291102823869244148709,
  8341041405715087871594992972631014,
  1736240565223,
  1599054908392,
  452399035419625,
  338990904675307,
  28783658850871184364,
  1808542825103754193564553099333134265527234045000621636553709,
  382047890541550,
  38029820854357393783061705401981573904567279,
  1598669032432,
  8348784030085828282452526427835377,
  7587705003239598754802,
  4730424307,
  169331123758925594825045708980392941747403176613693225385323695092,
  106803284966642118296499162101,
  30051318,
  1742676363743728424832035967603084279,
  9257297081820047782931639435623861892722101240,
  30247929,
  10765416652532189060656283891421929365495502618472090756977796937190394,
  468500462380939488137324871356898189251418319522811,
  5801610236,
  343546266946557,
  26728199696898795977802151201790,
  1462251195391,
  1715651578880,
  127308447201449097153265175553,
  1766771756034,
  7442795496742280224057015805047677664491191628402531983028746859351043,
  1166338722820,
  1910703959867399909706757,
  28755364959526292486,
  30247943,
  2517917347136895507750064398595114414560153700031109310745608,
  7632494437906976004769049088855050,
  508924370905368654365580717827764159376425207041035,
  452290588412940,
  458054392450061,
  6406755866461586754574,
  22667087786324020048474806848527,
  128841969285956593837177605136,
  382073660345361,
  86865109933526034,
  21508268371946187701867349576723,
  5838179348,
  7588238425848578477077,
  5835164694,
  1714127539223,
  1225605876760,
  444203577674777,
  5789813786,
  5173251099,
  31442853149451848732,
  30247965,
  116634661711350815,
  1766771756064,
  452283071302689,
  39665417682239267403276057286557780326474873127358991394,
  127222784649944677019463289891,
  105892426424814628,
  1490789239845,
  2151498792376822830949145742262635558,
  98124110483196967,
  495182910300424497726000168,
  1207828778025,
  382046819486762,
  30247979,
  85528123356014650576957639724,
  5250066581532870151213,
  30247982,
  116564291860794415,
  18451504,
  2491807270449207764558576852006000115664199191601,
  7738526770,
  5835164723,
  8425606196,
  5169056821,
  18451510,
  117480124530523665432858383510857802468380170999540026890205629495,
  1639842269801878687878209,
  32625065999523918026412841634132728833294161083922746438,
  18451527,
  1211102760009,
  1789274983500,
  1441226656853,
  4720266330,
  111740637770082859169438879805000731890384027149307105834557869153,
  5183540322,
  18451560,
  418523930756438877214331053766045074573614397361258,
  607186137580457488066247772660194223794004665863275,
  30248051,
  1781561658488,
  7090888841347744715412889105173625,
  1164273355898,
  6868789272955829456002,
  8511917189,
  1208225533065,
  30248074,
  367673437806452993260920620937125661836,
  18451604,
  30248088,
  38223013976411481458800666773918604999782780104238402845,
  380165254140387443534028492036877842173239026748702,
  8523798366815272686806312814507751905697211358223267368223,
  97184331164103214525036564403412581059873,
  39881026364757923386049608411758730528073529626224856354,
  32285904877987824167795609572208803542320381925600300323,
  2573066895570824787230232340888638656398984187172,
  2209564734890421102183735478393528863776300376984640373951781,
  103776126023310641841321905446,
  175809659377101879814723482638933219157737130513449327720287276327,
  735112463324737753685784637454708468988143169833173155398773588889687395624,
  107537068697343550910559980841,
  106797076237071288943473102122,
  8474084259034734234858386696548458387138911037423272103211,
  6282204319958053457196,
  448770625712570559680356450375998672173,
  20627524459891245975239908429102,
  26441377439171097133070734583265498679318608958148873519,
  114379003859995952,
  1804735110001576556501598014520986929,
  20435955605707656498,
  30248243,
  376329503718158696014054431691755921154878517579060,
  43558406879024345218487235330675355116401291284585480024766457417013,
  5835164982,
  8844502090996850545744829268725047,
  11422700711980692914704071605958645703733496934771193318712,
  7639048525445608082726861024218765783375951853539704536712780167842554700845583673,
  35660768754251493772838129772789762518388026,
  25008377791618780475,
  8304702280650579115674078797204796,
  7740296509,
  465713090166672210578396623675842071870,
  8847604599161225506842365687795007,
  1441427983680,
  382581081410881,
  105992482201046338,
  6186106325726173367619,
  7658444497994112346848434097948112645304616316296932346578725213146436,
  8427375941,
  30248262,
  309324487626056,
  116633288395558217,
  1207774252362,
  7150773895768993670694856511753547,
  485045920902431304559398220,
  30248269,
  112337052413234510,
  9289586227570905844521972359342390129152265551,
  32450295392852582416128272534864,
  1768911768915,
  24747368699713713449500723678548,
  30248277,
  9915018059170527191015534293907622823662229423108367093078,
  6411699382182882807128,
  5183540569,
  6282583151188636896602,
  7450800437071768377454992330772539042412237217591131686100845580553563,
  1766771756380,
  4727344477,
  10129711951066982234547750004071171549832504473501761310046,
  377918512236937226736668000,
  97170547879087457,
  494604641777586568072301922,
  147020006523968176188470431075,
  40290485399786999292307008850674089284298799752580195768943821557092,
  377583759145620531488001382,
  29785458012641398119,
  11198355416086258434185178175766614133704133843047728005443114132802923,
  4363750765,
  660479276037492691497227503592386400193908018282989074810965360,
  1917685828979,
  420199030012274375052791156,
  22587877454465986299614052715893,
  92650381036345575362884242806,
  13436820001154501511211067555323568759392879758240336432649778692957187238355690223861643906423,
  1941268121052716266196353,
  1876707020164,
  2754537348865973685797962310285611195997893585067943922039096500959874437,
  49514739410132799949793663478808168567874092327386366157634186044148879970504074,
  126647501329399795936847826315,
  20221329,
  7318310292,
  8044228733358826753439,
  153333570561099457082957023110028496309667,
  5835165105,
  8454370901913346510137602600067212782418266272563834766865987434831515562648047027,
  8392052148,
  7735971253,
  1130011987384,
  1598613720506,
  6908906940,
  309029764697534,
  5183409599,
  7855210101205907221791927074038229378779736077564680375747,
  558270560636356,
  18451910,
  115196241841755394664222657995,
  5196781011720713158935135569350092,
  1715654593998,
  5183868367,
  155504677493909942468572800912999895015696649136934353,
  381640489405910,
  18451927,
  105935011797306842,
  1925019438555,
  116545740563193925042003611101,
  5838179806,
  22941571501519568846165818789445261213208031,
  6707580387,
  1616868183524,
  407504098659878474150612456,
  87848179629067754,
  5838179819,
  1209382309356,
  12078431774940776519579022232251601864526540906698526589375416679545268129353261815334237778555074372013551,
  2612060454622779646855262625047224093797656928456373024624115,
  377583224370132119614426613,
  1640807405162523323829751,
  7741935096,
  6257610233,
  1873494183418,
  20221435,
  30248445,
  5837721093,
  1916599045641,
  16879114,
  1185666076172,
  1635725519307892660419271525004524857552966815247,
  4560096788,
  1757066923549,
  439048576732702,
  20221471,
  29477213289028292130,
  30248483,
  1207774252585,
  7151171280890595587989523699895850,
  32935468,
  5183409710,
  6865325615,
  5183409713,
  24864179430819335733,
  32804409,
  18452026,
  438771682020925,
  7737740864,
  7737740865,
  5237935682,
  22866719847544672684617949089348,
  104922388773965383,
  107598273225012207881962491464,
  4550069833,
  79251975979437642,
  1619008982603,
  76337944457023057,
  1342516268626,
  1714580524633,
  22646368,
  107576384455590994477275450982,
  16813673,
  1933598889840779088662124,
  72267044375268973,
  30248559,
  8513687152,
  303573471891058,
  1210334547572,
  369112938155638,
  309345906167420,
  1736055230079,
  32601999866509732228642358988417,
  1485982436997,
  558090457222791,
  2179569323663,
  30248592,
  30248596,
  30248604,
  24415902,
  568402719389595752969082438588573332853047629150863108007480135081313013419,
  328341794719945618946821804,
  24172038396778745519,
  105320841545107663148159372978,
  7555408492274595958458,
  2652793594892878112695912639565355721699937228673659914523830895878216606982788976486,
  27502174570682370873381849698151,
  6496675940906807573035242745335656,
  5848949327912072449400316689616745,
  30248811,
  708730861861769370457553747482438523990065740847362133028861804282194988908,
  6875352941,
  118625142621164971627976645913199156216506573627449110135203663726,
  132980077620180563962315924450625028807590211934965953830718115695,
  137500986579297549532943014070224971665264,
  444860701708145,
  1766774771570,
  8511917939,
  29236497745489991491188305217601697520127860,
  4811755381,
  18452342,
  1768676888440,
  5835165561,
  30248826,
  11519808182904339069653672969701039719274990776011248855545065265797057830184849275,
  383512047357820,
  10203404720600954304581490734140264518747940191343394197373,
  8512049022,
  6282600673408139759487,
  1766771756930,
  141754346662890675755205095322573286641539,
  129888125169667972,
  29389031045093586746037966923449596475182981,
  125767077702293865350561173382,
  382219236249479,
  40950451477498970275724046317640569077534600,
  32576611527936808744327913809896259950703396185806966665,
  1208502292362,
  7740166027,
  374333058224013,
  18452366,
  6255447951,
  8201332992110623468800241950822288,
  106323094246807099053341740506215234506641,
  1562130555511753412014844306540889777441978486675,
  1715639783316,
  6409423505428242337685,
  1776388332884392183893910,
  1185666076567,
  104801686393556888,
  127309959846885420078307315609,
  1492970606490,
  735202470668254183884897451997740514136806243224423769809954794575641218971,
  1933132261639130008817564,
  1550695826702058248446757805971952067087248428958,
  7040001431651567730840809642430367,
  7699158176950433577153902918364968839940771747,
  22307471838821445566330205147048,
  5710347922246149702848102637676127466131066793,
  5987460437906506223531,
  607371927350746607427268642604847969116542589308848,
  2161137991562526884383409278580723633,
  616169694410139775603608163593868135388043576103053947902380218842617416356696204080210225832366009,
  1926006085748860721794708396577537280003696136125,
  1951178684724418552666385878270597555633769160393286448330680691994484230872100016062,
  34808374373407226678860021558782274498236353,
  1641522232106958825230274,
  97943345087090628]

def chars14 : List Nat := [
  2163212721079741549170099550792290245,
  3557467409021736689753784750358744560112981605815619530700489900058543454874547246512317477654471,
  35226149403300069866041917067256097783713736,
  399807015063131030870633299937080160113076259295182,
  507632915601207630630421772863150961938238594740464025797910088702592913360,
  2172825987711913669115817707326417996851224952967930564076815672999017996291489697745,
  30248915,
  543676162532529348993482764141137792980,
  30248917,
  7584876127486204333644211397854766641573236696,
  6065638828372044625239054320308185,
  35185181118655467723414168634100225299922651471695822776954784406172950394002524223458021339,
  164267564339490834735387956584901524205118903456270609993630601656725682863860940818172788121879718271391283318748,
  547056848968595606533401843562251325405,
  2915092153130516562822960981076361368783381615951547823139175596016231203657550712725964302684126,
  27255522798098588397560478718544875110872318066265460703,
  24541308982739832802,
  452441501568996,
  1941262118451086859735013,
  27680374458250436056704386699238,
  5835165672,
  28776692462664912873,
  33375387904619394929878205793042254378434361152646123498,
  426704097955851173569963668511762190315,
  7707723681641542829601164195982480097176686573,
  31166446,
  88680853365002886714427144258386852614128,
  106593816008363016301756973706880883461640639648038027240032997367,
  5183410168,
  7090709036633566639433807017119737,
  115739337621393087538990170632288852021245,
  129875912425731256744512095299529450043890934551449600,
  9285525568420048038903990408870540930415104001,
  39493270680425039028234327837994810076065221305301241858,
  98075849961918853945728772327480914907139,
  2060965351428,
  1717910671365,
  1808301834934057604690713915481258309805916310836917491568646,
  39783758669386534335165891124567950075616850811806846985,
  606696447712208906394229420981855952249348052193290,
  381932580737035,
  29624116606027206669,
  157193482591720830497728739791390170857548327377262502234759139343,
  2160410653395264789865767164946386960,
  1491692523537,
  1817913983365963790378786306504560658,
  37149414641005949325195175171232647012257812,
  1768676888598,
  495020210002928162416398359,
  209537011140373522325121315916351649390035387831492307962416961264729348822935517803731110851235464210772645810202,
  368561695789083,
  1304924511078981764943901,
  405062674931055012659761182,
  11207347397057149223369413955722777986749340756623253292499981935546399,
  6289804802253618489682409209972768829002786458624930910240,
  1766117445665,
  32045379151199431816045810454562,
  1494573027366,
  32935981,
  1210982895662,
  4762341423,
  7740297269,
  20877366,
  29366155667742228593550855002119789434277944,
  5099993475011460042811,
  7627818723586454279801717520633916,
  21570998183010930750,
  20273814865513451585,
  2355411594962083511874524930738416633473009160258,
  6707580996,
  6960225577644562798645873876948573854260039751,
  38009642520564413025337886919875036973207629,
  5009415636430884212815,
  497298525768823041300926544,
  4727148625,
  5704290386,
  16805620157496260803509118389585830122577001351636073774857674382233148495150216800222503775888315955013570269213331539,
  404131597449047644226750670795848542563770153144407,
  5835165784,
  1598616277083,
  2179666579554,
  83895183333470729019025952867,
  6461729890764915264712909679291484178246876750639410483301,
  1769362198632,
  328630947281552069620961389,
  546469622758357463237499915078036918382,
  20222068,
  96750428387985380894573891701,
  4416639101,
  139203010395046252470562181534211598749823,
  1943107340254392882598016,
  4550070402,
  1493612662915,
  451902539796616,
  1916595638411,
  108134014787688159208451772561,
  1346402132516051133108371,
  452031640473749,
  452293562372247,
  1493794984089,
  1490870440091,
  7970984093,
  1779706990753,
  20796315892396560546,
  42085270474658099878566224991514471736156184931773285148048803401891,
  29841463980470361368218120290158492907462741808533794595620334964902,
  5254338795665814478949222510006442,
  4762341548,
  421433806187590785001834868060882946861970786717870,
  315667465015471,
  382196722143408,
  5282586792691771347121,
  1778633248947,
  7970984116,
  500939719473249207921119413,
  30249142,
  25227224866856079544,
  8847184983524485337273,
  1766771757242,
  24933329508297841573867241911415491977121979,
  30249150,
  27596378753994319603005030092445618118002549474465976513,
  4762341572,
  1766771757253,
  4762341575,
  132050268705376464080512173161373300854986,
  8672811352932472621111289799004702111962353037835331277006,
  1215993450703,
  30249168,
  98279616353082369677778596802890062270673,
  7736299731,
  2041637998807,
  30249179,
  1490821026012,
  80109712206172381,
  1952077808155677200847073,
  452029668233442,
  115717943880028390,
  381641350353127,
  11893251823652659715469809203479970362018925978581297357451351110970408289768673512,
  18780395,
  27777381095678266188352294981869,
  1765748347119,
  452293629481204,
  29947124558845612280,
  169943368434915163403097851143453517334179462106148691126891548925,
  381662825124094,
  141427699386802369651843576019871275585794,
  1490870440196,
  21515198674944028972453014573337,
  4811755806,
  80602006738932002,
  4811755811,
  7736299823,
  6947770673,
  30249273,
  5835166019,
  1490821026118,
  5522157466993498165577,
  97236521355022666,
  6412502576962890993995,
  5097873328995694842188,
  10165431871350530797209550089426018225104824708505523229005,
  30249294,
  450582340538704,
  7700447773390967900908591092129266404672093156588354638339831760523602,
  20222295,
  1964884425602237411725658,
  5019832669,
  1485205180766,
  32936289,
  6254596450,
  127308471983712992604645921123,
  30249316,
  2135641259678762858848454644783419749,
  5168402793,
  449808172683626,
  2266847713333456892561356463510491500,
  29983164633298342254,
  1362999122049723587531119,
  6503943666138768576880,
  22819065176833515451235893350769,
  30249330,
  30249332,
  5324134219978122760565,
  6407944928066836992374,
  92560628929467372410100552055,
  1634989183701351437633417215701785436417394711598606092702072,
  32936313,
  29397373,
  32936318,
  1641821983223621141172607,
  30249349,
  135855881654857937784270768371143833915783,
  421463837817623698480968012282693413995592172212617,
  32975187901411006910081080594827,
  1515273687436,
  2177801752973,
  6699979152,
  30249361,
  367664352081433635224768092523151528338,
  381946498224538,
  7684517264096447009179,
  30249378,
  6410572202,
  30249389,
  1767191187886,
  30249391,
  4716401076,
  30249397,
  409836496720314,
  1717285813934261375085025588748933708328762111531199365419463,
  20795753192603881929,
  1915748356699872904075099094375953690380027072970,
  15016245639321741357872760962191493117692025930951219765214452166787814955176437346871941454985565337063884,
  973146241039769013768011784051092106245516002426951745180403787568237325951481185834616982224048443177450901965,
  676276522321945860045970824794242913075445603827160104894770085669183478067437309104590,
  43227638977209921557632748315108264760880072373162177447257400636945598963618255,
  968512095672230561088895613755545336599840784721686727987671653402296508144826512797168495323213158103746449873,
  379396448817628,
  2539856970385051965531861210883400093304027772857222036623988,
  1766771757710,
  1532197757477446908482222,
  5835166408,
  1208428565310,
  5804626794,
  452290201621391,
  18453450,
  20222934,
  1492967593022,
  6500108569169880650859,
  30250118,
  1493051479175,
  501895578395801115591096365937305993088051974573113528073491592,
  410210691700354389226707226573355127945,
  1768676889738,
  31102091,
  5836018829,
  381641572324494,
  1494038058127,
  30250128,
  79195212716020882,
  5503633232295916180727684706636947,
  30250132,
  452290553943189,
  482480924937522506526069911,
  419762309157461443051361433,
  31036570,
  1641527375509761541379227,
  1492967593116,
  18453868033970574493,
  1962006911772933469410462,
  6977893828369389205081267030078909740055130477689795155103,
  1943850667824747776677024,
  7555914375259093570721,
  118093805426536172313169525345182472743990301907546065735050171554,
  4727870627,
  452008196084900,
  7587347530336528077989,
  118969333134390326393559090881209992713382,
  1908118493069450300593319,
  7676178497784249947304,
  2099397917107287228412686035259593897,
  6908908714,
  1766771758251,
  31102124,
  382196722144429,
  7168531270326912914606,
  99250008453125295,
  1768676889776,
  539458055280460829512376297343025476460457556755405132481008817,
  5835166898,
  1662560753655411750769843,
  25373308447033562292,
  7367050084279545140405,
  30250167,
  1491861083321,
  94464925293515962,
  6431029614455324333206476757871262226332292283,
  7583943440164749743292,
  1787140150461,
  1933138083532573586855102,
  452283071304895,
  25047782360515974336,
  36166147234450401595976147507992926224438381843396414035137154399362249031435665242301502657,
  452290554729666,
  29657826255692369472123424343817307029083331,
  6698341572,
  580377178012667160447359634859531801797,
  552892014105798,
  1514409661640,
  1768676889801,
  30250186,
  1483303916747,
  31102156,
  1491860296909,
  380000911725774,
  8394478800,
  30250193,
  30250194,
  31036629,
  7740298454,
  30250199,
  4728788185,
  115786888947274971,
  8911902180011354997182293094796187342158271708,
  8424457138952033790190693132113117,
  33264862,
  381914411799775,
  18453728,
  4730426593,
  6416504571134912074978,
  7583944736467485889763,
  17798372,
  30250213,
  115786379870049511,
  452126062646504,
  1323115058409,
  30250218,
  1766771758315,
  503944390072007961706337516,
  83895780521788212205028349165,
  24408575709415227125644314842350,
  5801612527,
  25049056535580546288,
  81164959896671473,
  25013090295213233394,
  1491861148915,
  1512253789429,
  2790573472070829068326185676606109997575332349832202220326113983032038646,
  6908908791,
  2139887512721540878150488280960111864,
  30250233,
  9289578159328176603978162537562842269161395450,
  5835166972,
  30250237,
  1495536196780810352739289066156692734,
  7584035049256419103999,
  38557587028090544613096544627959733817613055795511465216,
  27428346593848169309909981371894209479045053252550038785,
  97209335391294722,
  4634612995,
  1758363576730849650185476,
  118284490007575158021324840626925015241989,
  115229201331229958,
  30250247,
  2135889265053278327357796463052166408,
  379442993665289,
  2491185437173782471370738391460020527347791402251,
  1941489845004302575834380,
  30250253,
  30250254,
  1766738203919,
  9017869147368873259180774963513912232222168336,
  97777479990285585,
  4715418898,
  5835166995,
  4727870740,
  30250261,
  1492970607894,
  99250008453911831,
  5835167000,
  43663984604459531080456818784380337639713554864518408954574758581529,
  4799925524517730489626,
  309630030091547,
  30250269,
  1492967593246,
  1768676889887,
  36183268017735867286647924384694523202737441,
  105862463245620514,
  8343700891460137600897505652479267,
  468706707309522601398108941486376260900,
  83966375181527698845692368165,
  7561405752666838653830252694949592598408568073150147433766,
  2037321930024,
  32806185,
  32806186,
  30250283,
  5835167020,
  450454065802572138420999469,
  8447941814409738083464770139821358,
  1888229519136022909785391,
  7588196175463939937584,
  452010093548849,
  17798450,
  1768676889908,
  7588196536064149591349,
  97707415115044150,
  1766771758391,
  31036728,
  382197762200889,
  1766772675898,
  24767297547885665456292292236603,
  5836608830,
  30250303,
  1362261612675435974989120,
  1942665843375878822270273,
  7365947685450707932482,
  30250308,
  30250309]

def chars15 : List Nat := [
  33264966,
  27419254749487475143580000219751030631374978029116767942628681028935,
  387965903279433,
  4730426698,
  382197143344460,
  381913220617549,
  30250318,
  18453839,
  29622806818384876880,
  97921832716768593,
  5836608850,
  115786684809712979,
  18453844,
  26973525,
  309357255955798,
  1490787865943,
  6908908888,
  26842458,
  7740298587,
  606690515797672935119863589519111183016006818305372,
  1493798851933,
  1766739055966,
  31167841,
  18453858,
  4720268643,
  30250340,
  30250341,
  1513368687974,
  18453863,
  30250344,
  7740167529,
  381871343900011,
  30250348,
  451917999871341,
  1787131696495,
  26849154041743316336,
  30250353,
  5919839602,
  452242026763635,
  500648556064795249654142326,
  700382002919247594256366912457710756803788446584864947144011656600779861321486842691175596249852328763304023423,
  2535444876095689538382247611226537342335291154130720640051810050757190687173649759915877431482282422371456488,
  382582153385449,
  155688106208727039021878720318976052481272282051024362,
  1768907576811,
  163361636245605773286541794627369662017762052273378797,
  163354407839512486886081398570500615923673620534629870,
  26570047395664233421803104343535,
  29627990469141829104,
  115814151125571057,
  46996112328116220610823059489176796834326825927763428429272462956018,
  1766771758579,
  155399111171464071942398857318815112634878001045751978523157896695171403349458660017935860,
  115786403511244277,
  33265142,
  1832675893996977917403756308489965899626503771639,
  604907374349131153508242936,
  107797439022007464456904073978219229394056759035074041,
  450084908668410,
  9452423469517118859748958215257264679100755141326096287589720745678331,
  5835167228,
  88301884438245281347105035773,
  1887090073738122454865406,
  99107044016625152,
  2074937356110456238146356173721933313,
  1769364624898,
  30250499,
  1876270814724,
  106958027692877653266488661509,
  97842349114889734,
  18454023,
  5789816328,
  1323285386761,
  6911923722,
  113773458450388491,
  30250508,
  31102477,
  1640304990627996859340302,
  4730885647,
  87991012008695312,
  7371452563862618543633,
  4560098834,
  97330833144423148015980045211887382599188,
  97907496116786709,
  303530058421782,
  452293566567959,
  372723872383993750212023833,
  7970985498,
  1960360666028114119136796,
  549930904143556439233872641607513242484761817617951,
  1497301095969,
  33265186,
  116985968554055210,
  80109712206173742,
  7740167729,
  2410989414403682021396269706087735050950949547991998518554425648699708978,
  2818164969097504672454592902607184546415012950503633559859946625922328702208061379070001065924147,
  2434272111334482373816243637156226980116505823661534854803816453135504948,
  709986222938666182440377970073701318546600178376310276521508405656346334773,
  140436009091679465982929307206678295975478,
  553127906822985678538337981545569359419,
  30250556,
  30250557,
  464433963975354969885026401087524430480468412321942983956731455,
  107469124725325876465803826752,
  20652972812804003394,
  33270908820570831283847198585172461633214141182381954628,
  11527217021365441553767139608513708463029628135272448284954461910701637,
  141240471344153468415884703071476358517921147546837286850520801036725102972164835454326342,
  123592859996716824883763451463,
  608168023749795655966707608558215349822549768509000,
  1781561988681,
  439538786801227,
  1941858424312953730799180,
  163336875651271443290818423934974056411400079578273357,
  32309849327811812584595365888284159882214113253434955344,
  30250580,
  2152843260098699155217951519577904725,
  18454107,
  25224480761867769439,
  6458536798122238056033,
  28763613326749279548431372824876440400543235406225702544374981301858,
  550034746544070655726166705490162688167320163096164,
  33265255,
  452126746187368,
  2036026470841824076174320557736384321317362707124502287455849,
  5604647755270852811642845531510378,
  30250604,
  1981764179570,
  30250612,
  159614180232655141287405886326473805317076963322074741,
  30106135438292761636845455721763045424942604305087769157163443394166,
  116390918108833400131843036791,
  419895406895053785790060165,
  801856426066349763403287288068770265698579241053712520082132706533179517163534796166790,
  30250632,
  20602942570512488075,
  315343450838669,
  546856207783793593251446434764720651897480006618072240521123471,
  131033266046831620896088994795193944117529100915349136,
  107423776098214517554846148715905691616519041794217620,
  452840335840919,
  29658976789863175832,
  6277592650547830822553,
  136561728030840110761449708846512661108380,
  116910632658900647,
  1490870441648,
  30250675,
  7557721228875018762444825461102262,
  1766771758777,
  452291627685564,
  112478941553071805,
  9100837562259544019495114552407650481473468244227105095254605631100606,
  7812623210456043494225024895590765131550267072,
  135793101690097773740393835258406105749185,
  157680702110397685474883445066704495330303508242187571006245557356509565392580,
  7754284012038374992061992139635607095924973693220181645331179824387781,
  12674082859932204752658169167927807500570018475056731467353866707854647531457320646,
  7548786225549256464071,
  115786379867887305,
  7050688917506199650732123846121164,
  543877927229158236244371210114675873485,
  309348464826062,
  1582594262211347021928143,
  1503705929426,
  415515504829012466345630615057295054549,
  30250720,
  2192391221828182108519462603628761291568450016903378484434664,
  5885499113,
  128732617763273574707404171616004185146182912810074846117442254850751360243434,
  98124658328508143,
  117194304331028211,
  47373022646906622550189512199449324168641303456501782926205476654143513965467382,
  37083346734722050960510773143547766906863163929741789068946057041655,
  1210549114617,
  106865548243250185779231666071508325940361338048583422,
  546937641896867340554893438030340986624,
  28758034055488247553,
  27893096463156484607814204626692,
  28794834383242106630,
  9835424572260273808115769452475071121712502503526215489287,
  7740299016,
  1623647479781940186270618038816053001,
  107977364429359705868954167118490971599232760284944141,
  329216407607054,
  382198372800271,
  5789816595,
  79192994390710038,
  110455129426933720494818192696982069942044,
  1649080115846884265703358470680641342287065618206,
  8507725610,
  29633261528959063853,
  6863558448,
  117943228505307382258379582471662555966990432113242492697469818674,
  6286068604149365403583120284421273106503889986899045619512,
  317327469549369,
  7740167998,
  880707737495815901004819620815127390909552540343503076944933692515959505432443869509698370039027538,
  28794708808895076179,
  30363939738150808089834507795027793365669718,
  12229967533272819139655588137354333921921783037546741861271425542489878077705852761,
  1208379283291,
  11362091003300184741840619272158285644605848831757337689636937276422505722062305070377519781726,
  120019398541150969439919453693777280276320,
  21471017125137118465386480047969,
  2631914891108122067871966396235127971778408540202752318143747094783307058484695989568728186900419269772285794,
  1491860297573,
  9424304034701321835695898412865710168075530266603006118646395191203689,
  382199930787699,
  7684158883745654019956,
  89242419829554784377992550262,
  1782333413244,
  8512051077,
  1485354389015749956657186762581972875,
  1490850881175051315028838913601607565,
  4799960977,
  5835167634,
  32806804,
  24542821865810925464,
  88004488649217690850546718624,
  449924029519779,
  30250923,
  119892181375700465882760478802684984006573,
  5804627887,
  33265586,
  33265588,
  96660300006311754136927997141988128036838,
  25480404227728396494151502895079,
  10594824663613604363557205327874862416138049513,
  382200471066602,
  1768676890603,
  348848795672903568315750380,
  1765770106861,
  2613343011336638573684514981923005449095246774449579069380595,
  123664198382557089961562707957,
  87002919447127252845859870710,
  32583930488097546165733654173813,
  9493981159835317370256015113888462225239189937616734666594239466383192726583941238,
  7040319934315249841714866538584183,
  21010552,
  106390551792612367706499933276417461744104700691191929,
  874366391806630346971497366271685977278878746674096903126064901519974418989029681686922600436701306,
  106747533614407401376069251288481326536258602056259707,
  452781279910012,
  5508683098922680558326239566272637,
  460497417455670804140564630653473680820201188026541300939790462,
  754830989019991144663822588826773879895750456667294365960049601223697340543,
  20879488,
  6937820940487336695937,
  5503215824362461709263515795363970,
  8513689731,
  150095664829323476220801203756095363719305006205409412,
  7553099289869292247173,
  605613287164603126255967730641496653721456583743622,
  1768288565346242809556292475552241799,
  7682216205854755690632,
  86800239400032393,
  1210549115018,
  1209458595980,
  7643535635308297951373,
  1758149122191,
  1757091596053459463215248,
  107872891101280165187969114403752200027126335926802577,
  334341561328772301950326931,
  8425609364,
  421428709142996102946723990,
  1457322406736810097416343,
  97533844927617612099321941344858551195800,
  4720269466,
  452031569041563,
  514564630757267427606398513963392662527964958267548,
  151176675813960612106651072638576103088577681521481885,
  18454686,
  16816287,
  637330933200681164298002318650944158578370776701088,
  30251169,
  1768676890786,
  1768488621700732632965916610438404260,
  22648997,
  409360124450982,
  18454695,
  3242443493855412881819091434706420103864143818147568617778678638869535829877371012273159563483342,
  30251217,
  1512847099149001284294866,
  18454739,
  81453739069774037,
  163167115677710079305938530226989339288445203044931800,
  79196260677228761,
  5846112474,
  10353202334157350514824943293832044918655865900169469552918292233110036971217590494,
  1960451109797126717729460212869856936563961657501582779586783,
  30251239,
  338758213212392,
  30251277,
  360645711444803871578809992305429813520,
  115786886676191534,
  5835168084,
  4548303189,
  22649188,
  1768389047651827723806643935317170533,
  22649190,
  4730427751,
  5804628328,
  30251369,
  457179294636394,
  30251371,
  6254598508,
  511092138610584707380343860239213551027311630457197,
  6391548221214615915945538709958200212451858798,
  5791586671,
  141685239916871341956888544681879313619312,
  643937147667855877167006077514883298090902864828785,
  4798502496445918714226,
  22649203,
  439088718649716,
  115224258830506357,
  23682154856670521464091861593319287582660982,
  1598153136503,
  1485422827898,
  108978167306463228391671306620,
  5789817213,
  18454910,
  85597506536492473144483027327,
  1766771759488,
  368838742940033,
  18454916,
  8047707482055742495109,
  1927234956990475711281856401825485761758694578566,
  33266055,
  29478654791713593736,
  18454921,
  4727019914,
  76307483315968395,
  387526734485901,
  18454926,
  140836002447268239,
  5801613712,
  5804628369,
  1765736552850,
  1482197473683,
  1715198597524,
  5835168149,
  801596161012708517294518535126228319540373814827707431932600252694908449570954120108438,
  452293566241175,
  30251416,
  2641655292145510720681207010258158128420830371660841658105300896309891745941506922905,
  29714077175032551845,
  411354010751232207404898728,
  13009071421747655284626313654841225494932633000575976844447722292896896307299365716813883343180938950056556,
  309622304184941,
  457505099782766,
  1474558956613674282359407,
  141584217799060089047774575402169100835440,
  2137290944722456688329708582485662321,
  109081425359663359180834617633243917490803,
  494577270055929929441022445071789300340,
  30251637,
  6418647553224515820150,
  1714112404087,
  18455160,
  1934097168203776576297593,
  30251642,
  88840764376580121206122125947,
  25121247058225371772,
  4714437245,
  32761310791439317154107957029337123156957822,
  29840389560990276223,
  33266304,
  451964122995329,
  1793058266845154551297613321752320642,
  127293941267975195579616631428,
  79195467268659845,
  1943721542584884851743366,
  1956703285639228373899911,
  18455176,
  112479331368671882,
  29137052981943114379,
  1647647723101073155300110140287026947776451222156,
  5271346440782193859215,
  452290553944720,
  38007999226317391459212482454372266695498385,
  18455186,
  30251667,
  32807574,
  1607072955603671376501399,
  1493798853272,
  468327410465802055277197986400692378266,
  94392336922811035,
  129930665848969884,
  1483303918237,
  383299211729566,
  32807583,
  382191877593760,
  1485422828193,
  1768676891298,
  30251683,
  5508287002153217730771779281590948,
  6374492390726764829349,
  25116464423196400295,
  465407582710756743131069116520455836048145264759234934875986600]

def chars16 : List Nat := [
  18455216,
  30251697,
  4724464310,
  18455223,
  450039983479480,
  33266362,
  2180121205436,
  4560100032,
  30251713,
  18455234,
  8511920837,
  18455243,
  18455244,
  18455249,
  26827689653635226323,
  14815672805156020816956360319939990728403625229490028761601181008952403789956551129207333190631840022616946393720330968,
  5835168481,
  115814150706141926,
  5801614059,
  4727872237,
  97699971936721647,
  30251769,
  1779623107323,
  455306695580419,
  30251784,
  30251791,
  6190349560446042413843,
  112479334297082655,
  7954078499,
  6908910383,
  5836020530,
  1514243791675,
  1711004116969578575609069679543294023967148972860,
  498811109985486242980666177,
  141669926206295800321857277910662220716866,
  8511920963,
  127308423681503989885237304132,
  77780068224047941,
  6246996807,
  1766741220168,
  1440323705673,
  1714127870797,
  397875910289032166283133072105264618319,
  381638174153553,
  1495788358086909617396887759051397972,
  10203390491188326649134085869484639072623992130940136168572,
  1239972158591,
  658779003487336534745505112142227301513866037098231670001849943456132865153,
  1483303918722,
  4799962245,
  1483303918726,
  4783185031,
  379722786512008,
  5835168907,
  5005633218342417046669,
  30252174,
  30252176,
  5789818001,
  30252178,
  30252180,
  30252181,
  30252186,
  79192718412979355,
  1974690199569036637559765866090188421831394310841943318695378723436141724,
  5801614494,
  1210331012255,
  1101916642464,
  8511921313,
  5789818018,
  18455715,
  346501778665424149817236644,
  18455717,
  33266854,
  30252199,
  115158863658458280,
  30252201,
  5622045867,
  30252205,
  6863559854,
  30252208,
  18455729,
  18455730,
  5789818035,
  30252212,
  7740169397,
  18455734,
  1482196622519,
  1887050369159648947903672,
  30252218,
  30252219,
  30252220,
  30252221,
  1757528300739,
  1208393309380,
  1491863313605,
  33266886,
  7954078919,
  18455754,
  20648820781966269644,
  1760288152781,
  5801614542,
  4548304079,
  5835168976,
  30252243,
  1208393243860,
  5789818069,
  115210235774868694,
  115814144688102615,
  30252248,
  18455769,
  18455772,
  4720270557,
  25233613728585212579357230996702,
  1757066927327,
  5801614562,
  1627667135995800382200569349834861635678737374751,
  112325409308909088,
  123257641181322152146010056016692516744890874594074978582699548193,
  381916446039586,
  9391972565442124252461534126446259145035651545012970242946675340779043,
  79265287263329829,
  346501656835934037061770790,
  5789818408,
  1714125708841,
  450370192645674,
  30252587,
  18456108,
  31653029252780647747086894931501,
  29638076293086551599,
  4727873073,
  4727873074,
  439373428006451,
  1482100940341,
  8511921718,
  4718632503,
  18456120,
  5804629561,
  33267258,
  1362907755063900072681021,
  5007466746338575359550,
  131742067441404773403351044225272896502684925772406335,
  18456129,
  97843322937777730,
  7593182856248995585603,
  29151617436788366916,
  9256582666275620412828569105730686307414941253,
  5804629574,
  8511921735,
  18456136,
  112409651875257929,
  1955338266793289077923402,
  8511921739,
  18456140,
  30252622,
  22708171681856408754688668442191,
  381599176302161,
  5804629589,
  5836021335,
  1717909233240,
  8511921754,
  30252635,
  379970829393500,
  97676597650955870,
  30252643,
  154379995687135633735852477129397502661691146172472932,
  1765484895846,
  18456167,
  5801614952,
  381913222848105,
  18456170,
  97842627115654763,
  4715421292,
  7588537815443151953517,
  30409203534019048013528846490009037490986608,
  30252657,
  29660807333714435699,
  30252670,
  489770483847084454207417182529490279813126307946111,
  5789818498,
  5835169415,
  6908911240,
  18456203,
  1230962794130,
  1654795124763255817150099,
  18456221,
  21500577815106758255942030827167,
  1881276254747250606348694890039863120340224132102549608701606,
  31170228,
  5789818552,
  808395882637824528706637249986324196208466039442435847320950322071727796632221107461819,
  33267389,
  18456254,
  51142788709104529874798395992983528686876735594576191111916768846990768869932727223124074180,
  30252745,
  1208393309901,
  1624934857670169875389531182023388923954097725134,
  338652804259535,
  3159256507158666590929314879830082798414109127886725411147737452330226343056057671377,
  2163201311296021457541122679611956948,
  129363414924689205720581807830262725417114594381231607356053184042336472047320,
  1946151773112549743763163,
  1325256711900,
  309780929224413,
  7736303327,
  1980403588832,
  1935931252450,
  30252773,
  20881127,
  5176794857,
  72924073629228783,
  7740169977,
  6707584763,
  4560101116,
  1324393144062,
  4716404491,
  30252813,
  1810125366569511321987220271493853460693653561338699211054862,
  369005560569616,
  105359246744900034350948304401090715337170886414175115856961642259,
  5835169559,
  33267481,
  30670472959922397985408407446851125474074400,
  18456354,
  4720271148,
  18456367,
  5789818681,
  7959362845178385985679491474838512660973971181053299760955,
  1324797763390,
  30252868,
  2859415833251641640036136896535877503889560339858343529578063406353931504651387434446048026730320,
  4727873361,
  36262898081688416423310678048485425869856639,
  5835169664,
  18456451,
  118629107808700370980612283944552334204804,
  18456453,
  5835169670,
  4562657159,
  1760086826888,
  5804629897,
  1439904276362,
  6242803595,
  6694150028,
  34670268073910837791740591651704950676924063670796925155788314866095757809262489,
  20616453919149367194,
  5802467227,
  136062589893377451983613745808392811290527,
  30252960]

/-- The whole of jieba/posseg/char_state_tab.py. -/
def chars : List Nat := chars0 ++ chars1 ++ chars2 ++ chars3 ++ chars4 ++ chars5 ++ chars6 ++ chars7 ++ chars8 ++ chars9 ++ chars10 ++ chars11 ++ chars12 ++ chars13 ++ chars14 ++ chars15 ++ chars16

/-- The entries of `char_state_tab_P`. -/
def charEntry (n : Nat) : Ch × List PState := (n % 65536, (unpack (n / 65536)).map stateAt)

/-- The tables `T` are the shipped ones, with any probabilities. -/
structure Shipped {F : Type _} (T : Tables F) : Prop where
  start : PyDict.keys T.start = states
  emit : PyDict.keys T.emit = states
  trans : T.trans.map (fun kv => (kv.1, PyDict.keys kv.2)) = states.zip (PosData.trans.map (fun n => (unpack n).map stateAt))
  chars : T.charStates = PosData.chars.map charEntry

end Jieba.PosData
