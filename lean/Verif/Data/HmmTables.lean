import Verif.Model.FinalSeg
import Verif.Model.Double
/-!
# The tables shipped in jieba/finalseg

Generated from jieba/finalseg/prob_emit.py (whole table, in the order of the file), prob_start.py and prob_trans.py.  An entry
`'c': -x` of `prob_emit` is written as one number, `code point * 10^18 + x * 10^16`; the double is the one nearest to the decimal
number in the file.
-/

namespace Jieba.HmmData
open Jieba Jieba.FinalSeg

def emitB0 : List Nat := [
  19968036544978750449433, 19969081250419418420260, 19971078173924014298550, 19975063096425804013165, 19976088666890674539330,
  19977059320858505498910, 19978057395525833257280, 19979059970890972396440, 19981042742620559364210, 19982083555693075007690,
  19984099852510839617090, 19985102003881873821780, 19987063739508684594590, 19988101940288654738860, 19990061420510058031470,
  19992088838559614309200, 19993108951315374749460, 19994078354349891008920, 19995095072410068222320, 19996060040020080874050,
  19997088593614935807140, 19998101490948929946270, 19999097666193031111610, 20002097666193031111610, 20004056160149027212180,
  20005069806514891526660, 20006073839676506111620, 20007092186622073637170, 20010071673616655946610, 20011095525086741406600,
  20013045967433152820860, 20016076041579750481040, 20018104247286269302340, 20020078450714409956440, 20024119363192070572910,
  20025087554413138327260, 20026063393731145596600, 20027053560566916045400, 20029097206632237664150, 20030070566759769275880,
  20035092376644380027240, 20037094224250203960400, 20040173344819085750430, 20041080479215106874520, 20043056814815067392820,
  20044081021843692468200, 20045118791607932173430, 20046173344819085750430, 20047112454370331281980, 20048081876139595544350,
  20050108575095456853600, 20051173344819085750430, 20052087412540308828090, 20054104759168737836780, 20056086838073257843260,
  20057094929889841150320, 20060137509629701189340, 20061076825373818748230, 20062105365414956001140, 20063079994490926415430,
  20064082742669951764980, 20065081866554419881030, 20070073688179976122400, 20080087984669629182200, 20081091424649940381680,
  20083090815147135742450, 20094093489975518412200, 20098091424649940381680, 20102077868838942038120, 20104095371906350275700,
  20105077939029747331670, 20107062489757920693060, 20108064548887418636030, 20110072575033406297775, 20111096967654759102460,
  20113078740055802210500, 20114080445912578408510, 20115130578157895589890, 20116066095639051887210, 20117094154894204097990,
  20120132740388980286250, 20121132740388980286250, 20122075793783618051735, 20123114567461267954050, 20126075793783618051735,
  20127119051362796206030, 20129101605235888182500, 20130115084818011945930, 20132064876917519179630, 20133149365866357766740,
  20134108792833452349220, 20135061461099908325005, 20136104489722385402270, 20137127495144299044720, 20139085310576969743400,
  20140080964290980323260, 20141113158886940788100, 20142096153520676683120, 20146072289518746327600, 20147130304168153708740,
  20149122224941202185010, 20154046733384503948720, 20159072210576322119880, 20160063067792999913020, 20161094766143492432400,
  20164148495752587870430, 20165086298137951240580, 20166101814302736375630, 20167095310468516228750, 20169148495752587870430,
  20170066358548257289110, 20171079230800084308540, 20173081098442318980360, 20174067517686308200150, 20179097456520302672300,
  20180093043978143074820, 20181111339727345323530, 20182058227972130409480, 20183116855076704138380, 20184088460997990129260,
  20185084486259155747470, 20189129524552739011620, 20191159481875474551540, 20193115537383927827140, 20195064519354191124190,
  20196078538091024821930, 20197054946584657036180, 20200146954245789597860, 20202083853764390357930, 20203132914306407404940,
  20208096580082621858880, 20210100326595664371110, 20213129524552739011620, 20214134843343068649850, 20215070241968026969730,
  20219063811522317402350, 20221100517207289694510, 20223088681610475325630, 20225067503753260562410, 20233135968122902916750,
  20234076826016843537060, 20237095718858600349750, 20238123106013877287670, 20239093808121299252460, 20240126523506814508250,
  20241084074332607493480, 20247075904004882621290, 20248070838648249437140, 20249095152474547159740, 20250065203595890209180,
  20251159481875474551540, 20254107834015735316400, 20255088922278038233000, 20256066846382171478270, 20258151372573312388250,
  20260080689906921340140, 20261166413347280151000, 20262089676465987473680, 20266097832950412788940, 20267124366421086241330,
  20268152550403668952090, 20271088734358777818070, 20272088071403861069900, 20276092901765015844050, 20278117893044640954820,
  20280082366385678260080, 20282105775495193274900, 20284077024750491526890, 20285113838393559873160, 20291111000711828566720,
  20294070485590770454430, 20295124366421086241330, 20301071900501800991990, 20302076542629151662770, 20303084902897823300750,
  20304105729091397709890, 20305153885717595197310, 20307065806938652046070, 20308080039613763427560, 20309071057997593273640,
  20311151372573312388250, 20312121696959346515300, 20313077356869573241030, 20314131149742033989370, 20315084703005388096170,
  20316058405761774420700, 20317121470961027342880, 20318125982834601805480, 20319110065451248458480, 20320072639133486612460,
  20323109492875095773190, 20324130578157895589890, 20325141156060837068440, 20329095188713765398520, 20335122285364346744640,
  20336162358696199069360, 20339094086015918374830, 20340155427224393469880, 20342157250439961409430, 20348124902948221164520,
  20351068614565261935930, 20355121415250576848330, 20356102519333392197430, 20358064973156745635330, 20360146954245789597860,
  20361157250439961409430, 20363080928366867704490, 20365086436716009949970, 20367116611586414035510, 20375105775495193274900,
  20379081849536759956190, 20381071840561561589890, 20384109358869740398350, 20387162358696199069360, 20389108467978900904340,
  20390091330959533364350, 20391093647783252963880, 20392103750833964410680, 20394140763853705535610, 20398111711671045404020,
  20399089122589547500330, 20405079510289188902160, 20406162358696199069360, 20415078024929145838070, 20417152550403668952090,
  20419081715476589961310, 20420080306511935115220, 20426110336961139118000, 20430150318968155809980, 20431120980399457450950,
  20432173344819085750430, 20433157250439961409430, 20439093558281794923130, 20440100916839857812870, 20442121470961027342880,
  20445062247840567727880, 20446090701185788433760, 20447173344819085750430, 20448109358869740398350, 20449068029191722226850,
  20451152550403668952090, 20456116890350109318070, 20457119363192070572910, 20461118170290121103360, 20462074121726017983285,
  20463099467726694940030, 20465095400707028484430, 20467138687460057753180, 20469145618931863352630, 20472118496849750843880,
  20474112990004760502870, 20478121583321760012150, 20480166413347280151000, 20486119363192070572910, 20489097456520302672300,
  20491071673616655946610, 20493108840114864308680, 20495110355326617191000, 20498085501665586723870, 20500114967514614091040,
  20502151372573312388250, 20504086488970658983500, 20505087395872094949550, 20506111040004609965610, 20508138687460057753180,
  20511083321502003288010, 20513098625498303299220, 20517142899594708516200, 20518120114719294366360, 20520134224589031468980,
  20521134224589031468980, 20522099283785273380280, 20523089676465987473680, 20525110806530969995710, 20526152550403668952090,
  20538094125834975512480, 20540088836422177088270, 20542085029160294539810, 20547121811903140772650, 20551081327787299945250,
  20552142899594708516200, 20553088922278038233000, 20556116373884220696400, 20558130578157895589890, 20559085010191878551120,
  20565129650340561080220, 20570074928165696822580, 20572080210435785952930, 20581081072844195324390, 20596093647783252963880,
  20597091330959533364350, 20598091510845385766120, 20599092927471970875060, 20605097832950412788940, 20607107197563083712830,
  20608109994276570769860, 20613089444405028192900, 20616126523506814508250, 20621106726271680297330, 20625094754549288235060,
  20632107834015735316400, 20633085930257925766800, 20643107720378148813240, 20647150318968155809980, 20648085068671577375370,
  20649145618931863352630, 20652094003266750387220, 20653109492875095773190, 20658108667831824706900, 20659066846382171478270,
  20660159481875474551540, 20661094125834975512480, 20663080689906921340140, 20667099504924505965350, 20670085029160294539810,
  20677086298137951240580, 20681141156060837068440, 20687093818667969240440, 20689103750833964410680, 20693101814302736375630,
  20694142434394552167290, 20698124366421086241330, 20709108467978900904340, 20711097446403963923860, 20718139004947040898980,
  20721096405445830657720, 20725098169610579720120, 20729070241968026969730, 20731120462148778805090, 20736083853764390357930,
  20740072210576322119880, 20742159481875474551540, 20745118170290121103360, 20747141156060837068440, 20748173344819085750430,
  20752150318968155809980, 20754097335794490329600, 20757140763853705535610, 20767107197563083712830, 20778070838648249437140,
  20786085068671577375370, 20794145618931863352630, 20796116890350109318070, 20799075703713725075580, 20800104197510158564820,
  20801091748211715116690, 20803075400282770630510, 20804080455152161436720, 20805075708313012267150, 20806118250935719470660,
  20807092496112794368540, 20808064861356038477030, 20809070868374366591560, 20811081626744863156450, 20812098518000804203930,
  20813084283595776907420, 20816136456024544611070, 20817098518000804203930, 20818075703713725075580, 20820108559722663664750,
  20822121087352348618430, 20823121087352348618430, 20826076705849210234430, 20828112730249896470270, 20834125723079737772880,
  20837077520953380361420, 20839063916367945881210, 20840052434273746291360, 20841056160149027212180, 20843072209765719436340,
  20844053018880327789870, 20845076262187981883930, 20848089326995686701340, 20849070393239589529410, 20851060530220271701880,
  20852075408650271746280, 20853077206784311613700, 20854058873437441429160, 20855067450480395823550, 20856086293164888560380,
  20857128918306520847280, 20859081776478041220010, 20860085564640988769090, 20861108407280687233580, 20864102286957790937730,
  20869063916367945881210, 20870152550403668952090, 20872109766396420669440, 20873111040004609965610, 20874106624489631139770,
  20876106624489631139770, 20877074449411621715400, 20882092995268840728840, 20885149365866357766740, 20887122975293061614150,
  20889083589781865041180, 20891062001556925784190, 20892063835350207294260, 20896088872820889793420, 20898149365866357766740,
  20900099554737809467400, 20901113969457034926180, 20904152550403668952090, 20906134224589031468980, 20908088589443924276380,
  20910173344819085750430, 20911081397629175018180, 20912084325706821954310, 20914077331811146935780, 20915064194298086579730,
  20916145618931863352630, 20917105155578432995220, 20918096819362158811230, 20919078962890895569170, 20923103506919433169080,
  20924123172020717601200, 20925173344819085750430, 20928096909990014978430, 20932100373909034146250, 20934073346392677961525,
  20937096986950471794600, 20939119228358567200040, 20940090167157418557000, 20941103506919433169080, 20943077617927195643240,
  20945104138104043263600, 20955112706966998874360, 20956112706966998874360, 20957089637027356143420, 20960061337908051594350,
  20961091685497712534580, 20964086218864208263210, 20971153885717595197310, 20973094345865854353140, 20975095322725923279260,
  20977095322725923279260, 20979114708507329769470, 20982092496112794368540, 20984105636924846660630, 20985110653856248687820,
  20986054483803948337190, 20987087048532878290170, 20988150318968155809980, 20989093623607796533880, 20991122975293061614150,
  20992088289565220264880, 20993109697311517231330, 20995133832381899936160, 20998056538325832914450, 20999086080007121350380,
  21000173344819085750430, 21002095600463982720850, 21005142899594708516200, 21006173344819085750430, 21009086512659333343540,
  21010084270049310463070, 21015077664670923270450, 21016065450391279608800, 21017133832381899936160, 21018078583217110042150,
  21019069204187635281350, 21021075054485419638635, 21024109459205030294150, 21028083174835966762810, 21029074168942316601340,
  21032125304608638417870, 21033067311943546488700, 21034109459205030294150, 21035074168942316601340, 21038106423981660684160,
  21040074666733484959340, 21046062380875546969135, 21047105671387833096520, 21048105556970108898670, 21049107594060679754230,
  21050084037231730167740, 21051092388832071968550, 21053125895497802117940, 21057145618931863352630, 21058108407280687233580,
  21059115293469396585560, 21063133832381899936160, 21066097790999643347700, 21069064989877677247580, 21070107594060679754230,
  21073090747649475535220, 21076122045831936519700, 21078107305380839745700, 21083078583217110042150, 21084173344819085750430,
  21085092325011767218500, 21089143900429294086030, 21093092325011767218500, 21095082744994181874230, 21097084047817942615950,
  21098099387602999730000, 21103093277810631346760, 21106098574434362553480, 21109069204187635281350, 21117122718868755480770]

def emitB1 : List Nat := [
  21119110540860696148490, 21123084270049310463070, 21127082744994181874230, 21128110373725886411090, 21129065450391279608800,
  21130125895497802117940, 21133090747649475535220, 21137108407280687233580, 21147074526266561660295, 21149095020709813871240,
  21150072090515253012250, 21151074443835931579320, 21152063149351537670855, 21153097517434196606330, 21155106399198500539480,
  21160067921185842607640, 21161089293382209674290, 21162082877198505756800, 21163107510726864162790, 21164152550403668952090,
  21169116680552204626120, 21170097609506458290930, 21171072314060643462430, 21183084282240304184230, 21185097609506458290930,
  21187105833804396382830, 21191088677402606549050, 21193098256947379407670, 21195102561403290173740, 21200140022773983998400,
  21202104357673742450570, 21205067921185842607640, 21208102229697920788870, 21209097517434196606330, 21213077955574728266550,
  21214072314060643462430, 21215102586730445966570, 21218084282240304184230, 21220095400707028484430, 21235102561403290173740,
  21237116680552204626120, 21240095020709813871240, 21242126249517072627100, 21243115599303630306360, 21246095028646322224330,
  21247130859866665256850, 21248115599303630306360, 21253067963771176693740, 21254096519994620405400, 21256095044538260412050,
  21261122593080933412160, 21269103865448399600750, 21270072997029703577400, 21271059270058521023820, 21273148495752587870430,
  21277139004947040898980, 21280116961272392412980, 21281117323630876953440, 21283116819927283063940, 21290112341629565549800,
  21294118834434550093440, 21295083970006801590030, 21297118834434550093440, 21305105320871452507330, 21306075389136982584100,
  21307071502613726753420, 21310098322954219721200, 21311122975293061614150, 21312075389136982584100, 21313060073440000419450,
  21315071326691234886550, 21317143900429294086030, 21319080230300352304500, 21320088576941317938460, 21322071152351610152450,
  21326070943078566593220, 21327073559796522334700, 21329099019981006579250, 21330139671860785885700, 21331095192748463859560,
  21332073559796522334700, 21333067753154250938780, 21334088556138314804740, 21335061507829937271830, 21338078419746448351900,
  21340103894308448492100, 21342110749004445101200, 21344080039613763427560, 21345085161476250228700, 21346084918774278970180,
  21348103961974245580840, 21350159481875474551540, 21351097822446210142430, 21355077588736182421090, 21359146264317074728340,
  21360073253288868841340, 21361077677966471221100, 21363076860801727877090, 21364081257428179658340, 21365102485804442094320,
  21367094871100724152560, 21368109442412415096940, 21369139004947040898980, 21371081257428179658340, 21375122975293061614150,
  21378091121968347023280, 21380108919417421068450, 21381104479502660445330, 21382065479915710309350, 21385086543198888806660,
  21387078808032779991320, 21388102286957790937730, 21389146954245789597860, 21397105243394584599080, 21400090527579181636530,
  21401146954245789597860, 21402093836270508550560, 21407061051800959290950, 21410110282066216270280, 21413173344819085750430,
  21414100753657804779430, 21416100572341819435600, 21417149365866357766740, 21421102286957790937730, 21422106548827227306600,
  21426086543198888806660, 21435079405707604044750, 21439075596234986360960, 21441153885717595197310, 21442065777286245862120,
  21443065777286245862120, 21448081464894002627700, 21449118964025996518480, 21450075562741724656730, 21451087418102559829020,
  21452070327552930224910, 21453063693054214754040, 21457050058421338794940, 21460096087104669870930, 21462071149070590819680,
  21463071571957139457620, 21464065950247039135410, 21465094060758823945090, 21467094578434475995810, 21472113256687231324480,
  21474095072410068222320, 21475074427127489931140, 21476067523772272632960, 21477103241700412678150, 21478077484485868243670,
  21480130859866665256850, 21481101377953377406950, 21482064500776068550910, 21483081659014708470930, 21484077010329933181010,
  21485152550403668952090, 21486104551261041146050, 21487054010450999580850, 21488074824981989060320, 21489123040439871826080,
  21490079536395566102485, 21491081593542923546050, 21493131913471821835110, 21494077627676500036635, 21495085120123363060750,
  21496076144365405015740, 21497100001525582745070, 21501117250101133900840, 21505140763853705535610, 21507083180904296337950,
  21508058218164774106755, 21510108094522507315820, 21512065339883855766270, 21513080714542143198550, 21514097011122588954600,
  21516059114155077731510, 21517065523431879937160, 21518065158642974855120, 21519100113111906315740, 21520097390946297210710,
  21521077700399007792550, 21523102402470626502890, 21525085601689502896650, 21526173344819085750430, 21527127597709300716600,
  21531085512389448341400, 21533119969438288737250, 21534096991780223156280, 21535113916825334483430, 21536140022773983998400,
  21537122975293061614150, 21542084754025906935130, 21543129036651097317300, 21544111400765174703710, 21545092604556924509820,
  21547080669109031445880, 21548072186286778965850, 21549112364076264088040, 21550127597709300716600, 21551086438397388684500,
  21553118920641980532500, 21554136209098418707360, 21555068962276215015180, 21556068962276215015180, 21557104801274063200220,
  21558106337507990272330, 21560079364179305159120, 21561096701352764764260, 21563115414683001909000, 21564112010838655783950,
  21566125553584154635140, 21568152550403668952090, 21570085601689502896650, 21571142434394552167290, 21574102295164603052020,
  21576096905199595725140, 21578076622330850674850, 21579132236080444017330, 21584106337507990272330, 21587139332845269128890,
  21589106713492125842410, 21590149365866357766740, 21591151372573312388250, 21592089741764726959520, 21593148495752587870430,
  21595157250439961409430, 21596110355326617191000, 21602120114719294366360, 21608065134444172985980, 21617125637972841093790,
  21619091932921151173520, 21621109526658911689460, 21627106726271680297330, 21628080119742397281130, 21629075880576066187760,
  21632115143989782226810, 21634132914306407404940, 21636119969438288737250, 21638118050528210636200, 21643119592035008908800,
  21644072256482437552870, 21646135058405120859500, 21647123646686089990430, 21650112871097295287650, 21652121869874317615900,
  21653105951452812178700, 21654097640386565176700, 21658117971476415565060, 21661153885717595197310, 21667133271487233425730,
  21671127393620584404540, 21672088881404581307580, 21674129036651097317300, 21675129906764867213600, 21676099648811880486350,
  21679114263989704061140, 21681076703943298726480, 21682152550403668952090, 21683101407960901799330, 21684173344819085750430,
  21688086318054970272730, 21691151372573312388250, 21693103712919227048060, 21695132401373463529430, 21696100132933518355660,
  21697076548256437896230, 21698143900429294086030, 21700110729902242540010, 21702113916825334483430, 21703114851571286281850,
  21704079450752725255790, 21708141989876926458930, 21709089401345471576530, 21710108808569096823520, 21712136968957488486570,
  21713103846254535742710, 21714155427224393469880, 21715173344819085750430, 21716140386450425707140, 21719110466233484132600,
  21729089741764726959520, 21733085128970311440780, 21735151372573312388250, 21736107963420848073750, 21737159481875474551540,
  21738076456118576336920, 21741095092366171432700, 21742113555961436739230, 21746086200785478711000, 21754105298673885124200,
  21756114129034889312280, 21757109941226048472910, 21761155427224393469880, 21764151372573312388250, 21766118130209907127970,
  21767116441224542509830, 21769125304608638417870, 21775128126933315260040, 21776076601559796786890, 21792118050528210636200,
  21794121639979135368930, 21796106777553843966530, 21799113405204812684750, 21804135278194188047230, 21806101900747282539040,
  21807083931981449274760, 21809095873169420547100, 21822107051186551375950, 21823129156413007784470, 21825141156060837068440,
  21827148495752587870430, 21828125304608638417870, 21830067175054778210560, 21834109853429171952450, 21839062102381836786344,
  21852127393620584404540, 21854103846254535742710, 21855086438397388684500, 21860106154687541897840, 21861130169937950387330,
  21862151372573312388250, 21863120874578364145580, 21866132569444646693240, 21870126997529203454090, 21880119139469093027590,
  21884113037966483137800, 21886166413347280151000, 21888100662588874154770, 21890114428376967492720, 21891105090218723197370,
  21892087475761047475050, 21895098619811638374860, 21897102270564344643400, 21898098937482011857830, 21899127597709300716600,
  21905141156060837068440, 21912106154687541897840, 21914106777553843966530, 21916075995905382143940, 21917084617143786641070,
  21919145618931863352630, 21927102352801650219510, 21930092186622073637170, 21932087412540308828090, 21934067753154250938780,
  21939141989876926458930, 21943093271148405917130, 21945133454978620107700, 21947102477439740644660, 21949117932183634166170,
  21957113683351694513500, 21958157250439961409430, 21961151372573312388250, 21966127597709300716600, 21971100565433356293820,
  21972127495144299044720, 21974127911871263050400, 21978110355326617191000, 21980117032701267536780, 21981151372573312388250,
  21983128126933315260040, 21985112894765945390320, 21987126900910094336700, 21988131600946386794070, 21989143900429294086030,
  21990166413347280151000, 21992152550403668952090, 21993121639979135368930, 21995121811903140772650, 21996162358696199069360,
  22002143900429294086030, 22003143387496350210530, 22005173344819085750430, 22006140386450425707140, 22007128018824154217890,
  22016116240548912001740, 22017135732817928814810, 22022100001525582745070, 22024116577281063067610, 22025085503196863045670,
  22028133832381899936160, 22029117932183634166170, 22030123508752868667070, 22036106713492125842410, 22038120874578364145580,
  22039098966867869031120, 22040130578157895589890, 22047115914787207655610, 22052159481875474551540, 22055133271487233425730,
  22057110466233484132600, 22061173344819085750430, 22062118050528210636200, 22063119139469093027590, 22064117250101133900840,
  22065103027406498119160, 22066105500248459374000, 22068086587476890302550, 22069173344819085750430, 22070113086159347497300,
  22073125304608638417870, 22075117177108109084730, 22079104602834131217490, 22094129036651097317300, 22099130578157895589890,
  22103119273101371149240, 22104150318968155809980, 22108155427224393469880, 22109153885717595197310, 22112155427224393469880,
  22114173344819085750430, 22116135058405120859500, 22120086778746613761280, 22121114400790743101930, 22122107510726864162790,
  22123173344819085750430, 22124127701337171072070, 22127143387496350210530, 22129134224589031468980, 22132093271148405917130,
  22134118538429852330530, 22136111400765174703710, 22139130440224674266520, 22140125637972841093790, 22150173344819085750430,
  22151102402470626502890, 22158118920641980532500, 22159159481875474551540, 22163166413347280151000, 22165155427224393469880,
  22179112230145690723650, 22182149365866357766740, 22196069806514891526660, 22198159481875474551540, 22199119969438288737250,
  22204135502922746567830, 22209121811903140772650, 22210112230145690723650, 22216139332845269128890, 22218110410626297285630,
  22225103027406498119160, 22227126997529203454090, 22228159481875474551540, 22234106154687541897840, 22235064389470117655145,
  22238062368446406617420, 22239151372573312388250, 22240061046756086367850, 22241166413347280151000, 22242075811198146165540,
  22244126070940898627040, 22251127701337171072070, 22253090094182149438460, 22256080639876137791140, 22260081802886972218620,
  22265143900429294086030, 22266080521930372862760, 22269050374220501756500, 22270073267244348631190, 22271157250439961409430,
  22278084465530895717400, 22280097456520302672300, 22283050374220501756500, 22285081802886972218620, 22290090094182149438460,
  22291084465530895717400, 22294073267244348631190, 22296075811198146165540, 22300146264317074728340, 22303069795684795545500,
  22307083246677980476620, 22312073799210858549150, 22313130304168153708740, 22314114129034889312280, 22317119363192070572910,
  22320051574004763954690, 22330081476148927845030, 22338115599303630306360, 22343094601230838451630, 22346134426616104644180,
  22349120822084805284130, 22350109226636408651480, 22351096166856975614610, 22352077866697996445650, 22353104738182371267570,
  22359110903150079113080, 22362074058140575086180, 22363122224941202185010, 22365113158886940788100, 22366159481875474551540,
  22367105254426025320650, 22368109526658911689460, 22369108761436252302540, 22372118414204652344960, 22374085148165592343900,
  22376146264317074728340, 22377132914306407404940, 22378132914306407404940, 22383131755988252153720, 22391152550403668952090]

def emitB2 : List Nat := [
  22402090225923503446840, 22403100774792014829710, 22404097666193031111610, 22411097411077154537530, 22418129036651097317300,
  22427112614373744746390, 22433155427224393469880, 22434173344819085750430, 22435144441101506788800, 22438116543092995579760,
  22443116373884220696400, 22445137791338470856300, 22446121470961027342880, 22466162358696199069360, 22467086241920871968940,
  22475093829225774197930, 22478062223176325084975, 22484159481875474551540, 22495116011406316772980, 22496153885717595197310,
  22497137791338470856300, 22500173344819085750430, 22519072530992481978740, 22521078761883063760770, 22522061353361151784690,
  22528125222975532026270, 22530098383845633990870, 22533074058140575086180, 22534099097201467518360, 22535153885717595197310,
  22545138081213839588820, 22549109292534505442020, 22561114209789029367740, 22564107346114093622070, 22570102637578013147670,
  22575124824516446554270, 22576110155137948286090, 22577066616734812561280, 22580081476148927845030, 22581101133768103925480,
  22602110903150079113080, 22604119592035008908800, 22609093971072124117490, 22612091410816766229460, 22615095968656257171400,
  22616114263989704061140, 22618149365866357766740, 22622092847356176228520, 22626159481875474551540, 22635092044228685822470,
  22636173344819085750430, 22645102067882092276450, 22649138081213839588820, 22654142899594708516200, 22659081338888880537410,
  22666116373884220696400, 22674153885717595197310, 22675092914610232767620, 22681090898851521925470, 22684109526658911689460,
  22686063445052571731160, 22687166413347280151000, 22696088123011756477680, 22697115787396949881320, 22702109292534505442020,
  22707105254426025320650, 22718116543092995579760, 22721095723113014368390, 22725135502922746567830, 22727122224941202185010,
  22739078808032779991320, 22741121470961027342880, 22744129036651097317300, 22750096166856975614610, 22751097666193031111610,
  22756128571450940968380, 22761113158886940788100, 22763085204487069222600, 22764114511595200867650, 22766086635381173528870,
  22767086635381173528870, 22768072487978070581125, 22771120874578364145580, 22774125637972841093790, 22777141564280782270980,
  22778125637972841093790, 22781094605035289705430, 22788070759106774916765, 22791085930257925766800, 22797074439782835972100,
  22799077194767486614655, 22804142434394552167290, 22805112823927396506270, 22806062600459020353950, 22809126900910094336700,
  22810060377492077072600, 22812082819656217924290, 22815116611586414035510, 22816116611586414035510, 22818092676465941577070,
  22820135502922746567830, 22821095152474547159740, 22823046151037168300590, 22825055683027857345360, 22826065861137004530400,
  22827079002782443603030, 22829121869874317615900, 22830104088867114645750, 22831120411770838505500, 22833072787454835012540,
  22836073868817814205950, 22839104582172966842780, 22840094953502603007110, 22841096126901317575090, 22842086655982039183750,
  22846096126901317575090, 22852120822084805284130, 22855080617302764774640, 22856106611839408073900, 22857089921184081944660,
  22859089356219041206710, 22862122346154807508450, 22863097172140949466980, 22865095229134192298640, 22868090776150596007310,
  22869132914306407404940, 22870087939628918553100, 22871095718858600349750, 22874113207667525322420, 22880095735887127240210,
  22882101845650724429340, 22885081370241624298740, 22887081370241624298740, 22890086655982039183750, 22894089356219041206710,
  22899067376971867278455, 22900081890001089473580, 22902089135793774770940, 22904096895625636161870, 22905085855422770373280,
  22908140386450425707140, 22909068111439382904410, 22914058404334993745040, 22915114428376967492720, 22916101995910570091600,
  22918125061681712727420, 22919083702978622221430, 22920089041546501804680, 22922109994276570769860, 22925162358696199069360,
  22930118010924198475240, 22931107387013946137330, 22934096118043921070410, 22937101551739390710090, 22941125061681712727420,
  22942123577481661544690, 22949098406080217914860, 22952108316918626594200, 22953119873743778575750, 22955138081213839588820,
  22958128918306520847280, 22959134632808976671520, 22969092026571235678480, 22971087879241085289020, 22982126340015427826270,
  22986098619811638374860, 22987081459782312080350, 22989139332845269128890, 22992089674141757364440, 22993078256679030688810,
  22994166413347280151000, 22995096069467980995960, 22996066203086141484450, 22999139332845269128890, 23000133832381899936160,
  23002086982620107371660, 23004089826351697468000, 23011138687460057753180, 23013116273716438261680, 23014096895625636161870,
  23016105740672174916150, 23019152550403668952090, 23020105845507147864740, 23033140386450425707140, 23035118877445369087340,
  23039097167223319665390, 23041078977233527509940, 23043098356121745981130, 23044112230145690723650, 23047102527733224694700,
  23048138687460057753180, 23049140763853705535610, 23057153885717595197310, 23059130304168153708740, 23064092376644380027240,
  23067097754436531316600, 23068126523506814508250, 23071135968122902916750, 23077147695325511135070, 23089097754436531316600,
  23092111279059818501160, 23094119318045267027650, 23100124441327803532900, 23104126805215584175200, 23105112230145690723650,
  23110090909364006467840, 23113112319233139614760, 23114113232147341708820, 23125159481875474551540, 23130086253469169878620,
  23138126340015427826270, 23142083702978622221430, 23143151372573312388250, 23156097880356348290200, 23157146264317074728340,
  23158110119166686477600, 23159149365866357766740, 23162123577481661544690, 23186084859726076869640, 23194113683351694513500,
  23215138081213839588820, 23218119051362796206030, 23219097231341911714240, 23229089041546501804680, 23230125895497802117940,
  23233108855925144281860, 23234102369330579602500, 23241110981123183713390, 23244105556970108898670, 23252110749004445101200,
  23254122346154807508450, 23256117585328054287270, 23265115787396949881320, 23267118580183566435340, 23270119051362796206030,
  23273112230145690723650, 23285119873743778575750, 23291111279059818501160, 23305115323635331979800, 23307146264317074728340,
  23308102527733224694700, 23319136709202624453980, 23332125222975532026270, 23338110749004445101200, 23344097880356348290200,
  23348141564280782270980, 23351125222975532026270, 23352110119166686477600, 23360145618931863352630, 23372138687460057753180,
  23376077658379196683090, 23377128571450940968380, 23380084058415373730940, 23381103675147699610600, 23383083144549433223700,
  23384073817281147359970, 23385072992207574294740, 23386150318968155809980, 23388129156413007784470, 23389085587780220073050,
  23391087309275515107640, 23394107992406375613840, 23395081334850516020140, 23396087665956028432890, 23398055752668408633220,
  23401074758348305120700, 23402128126933315260040, 23403072992207574294740, 23404138687460057753180, 23408120361645420270080,
  23409130859866665256850, 23411134224589031468980, 23413109243070266088780, 23416055752668408633220, 23418133641899950229220,
  23421127806050169745030, 23423128126933315260040, 23425084564026524486100, 23427079122611775633620, 23429109259531175155460,
  23431089842882578549760, 23432087593972387430290, 23433064622250325196300, 23435073977530222591135, 23436064769262598307310,
  23439091103183959371830, 23443125469901657929980, 23445162358696199069360, 23447078447688920182210, 23448069986276947332450,
  23449116108968066226620, 23450075053408181675720, 23451099091240215478930, 23452079477542192930980, 23453076752977051887510,
  23454057521983055025040, 23456104377875769523310, 23457072742470503643920, 23458074004166555747775, 23459071973857548769420,
  23460098884804102509240, 23462104886020333109950, 23466080228492851169890, 23467075977575739170180, 23470075977575739170180,
  23472097558250579802820, 23475086924197351129370, 23476100152794498071960, 23477129650340561080220, 23478067534177704699285,
  23481077702504640367450, 23484173344819085750430, 23485086685239438936940, 23486098484292907119040, 23487095128387823350630,
  23490098803408304283650, 23492092085551058671570, 23493141156060837068440, 23494077903872760446970, 23495112753587129932470,
  23500079336864799081840, 23506088008249911281420, 23507106486209615066850, 23517107720378148813240, 23519097922684453816400,
  23521086827578242012000, 23522107720378148813240, 23524162358696199069360, 23525114291200605204730, 23526057521983055025040,
  23527084564026524486100, 23528110961572835355360, 23529072742470503643920, 23531083589781865041180, 23532086685239438936940,
  23536129036651097317300, 23541104377875769523310, 23542076752977051887510, 23544115203513767499770, 23545062211985384101910,
  23546100299659621148880, 23547081028694013233210, 23548073014145105030215, 23551094605035289705430, 23553074771953749396300,
  23556084771090757492720, 23558075988806050366150, 23559075988806050366150, 23560063739508684594590, 23561103414667856420830,
  23562085211921461060070, 23563081028694013233210, 23565062211985384101910, 23566073014145105030215, 23567057954501965203360,
  23569071587559250809880, 23572096193583049429390, 23573153885717595197310, 23574089873655475363240, 23576102067882092276450,
  23578078415976420032040, 23581098966867869031120, 23588080544289241875600, 23589153885717595197310, 23591124824516446554270,
  23601071114139870879210, 23604100690521853210910, 23607100690521853210910, 23608090765777151093700, 23609090977965858625880,
  23610098235041565609490, 23612086740545490728990, 23613075793783618051735, 23614094028378871207340, 23615103991114625599330,
  23616079456606791908440, 23617101318207120518070, 23618089902145523123980, 23621074706191508221830, 23622103488400909358360,
  23624089013227127688150, 23625151372573312388250, 23626103488400909358360, 23627083833009421174400, 23629090765777151093700,
  23630149365866357766740, 23631096795648607267230, 23637076797762795331400, 23644151372573312388250, 23646082128634666596660,
  23648095334998373173030, 23649104759168737836780, 23650104759168737836780, 23652089902145523123980, 23653095655258640367120,
  23660082128634666596660, 23663100159423600071430, 23665064112629502242540, 23673122346154807508450, 23681100021127026459800,
  23682096767266374401800, 23692130718020315337280, 23696128685737899204600, 23697103187694880878150, 23700113086159347497300,
  23703094021197542352920, 23704144441101506788800, 23706140022773983998400, 23707089632397726431100, 23713109766396420669440,
  23714159481875474551540, 23715173344819085750430, 23721087665956028432890, 23723140763853705535610, 23724132401373463529430,
  23725103894308448492100, 23729132914306407404940, 23731084954951150782580, 23735121754266093605140, 23736100401046092862230,
  23743139004947040898980, 23748166413347280151000, 23762173344819085750430, 23777103923252028755740, 23780173344819085750430,
  23781131600946386794070, 23784105705970000126080, 23786140763853705535610, 23789112386573461428200, 23792106106494677538340,
  23796144441101506788800, 23798089632397726431100, 23803129156413007784470, 23805103923252028755740, 23810128685737899204600,
  23814118622112349035690, 23815083625256373293550, 23822116475065522352250, 23828091799817334231020, 23830119318045267027650,
  23831094021197542352920, 23835106687981907926360, 23842131600946386794070, 23844173344819085750430, 23846173344819085750430,
  23849101964088745306970, 23853109476025892124000, 23854166413347280151000, 23869132914306407404940, 23879123106013877287670,
  23882130718020315337280, 23884113110343156140100, 23888140022773983998400, 23913107469318937502470, 23919138687460057753180,
  23938173344819085750430, 23940109476025892124000, 23959128685737899204600, 23961131448271665486180, 23968173344819085750430,
  23975166413347280151000, 23994103894308448492100, 24005122346154807508450, 24011139004947040898980, 24013109594570887469480,
  24020122346154807508450, 24029099079328361777400, 24030091533210505516340, 24033086534706319294120, 24034108652315917792700,
  24037052861689475019045, 24038071422128881438340, 24039092888936277715160, 24040077809065050268310, 24041095417201877585180,
  24043102075910996762360, 24046078615465295237240, 24047144441101506788800, 24048144441101506788800, 24049109749080399026670,
  24050063539803058122040, 24051162358696199069360, 24052074397324219822010, 24055108951315374749460, 24061142899594708516200,
  24062125469901657929980, 24065117815223236534270, 24066064080040055057050, 24067075361882189174210, 24069108212517976627360,
  24070110768143206924050, 24072070380067694418640, 24076074977753897292670, 24079155427224393469880, 24080100995834882602120,
  24085096215909470849150, 24086116273716438261680, 24088115084818011945930, 24091129156413007784470, 24093078649361021396290]

def emitB3 : List Nat := [
  24101108212517976627360, 24102075059334427034100, 24103152550403668952090, 24107070380067694418640, 24109100340090943072460,
  24110078559481407309430, 24115100995834882602120, 24118075059334427034100, 24119113969457034926180, 24120067928314838117300,
  24125102612121911153340, 24128152550403668952090, 24130134224589031468980, 24131155427224393469880, 24133099567230003471710,
  24140122910567916557980, 24148157250439961409430, 24149102262377688435040, 24161138379743471085630, 24163117815223236534270,
  24171078559481407309430, 24178069480128055029230, 24179059814904815211400, 24180063130861043550100, 24182073839676506111620,
  24184084320263163681600, 24185069480128055029230, 24186173344819085750430, 24187097426201936851110, 24188090240669143867520,
  24189092937129142074650, 24190061337908051594350, 24191065612922135793530, 24196083065030941928380, 24198088606138418971800,
  24199112499824954998730, 24202091452373828391430, 24207098158746917597920, 24208103894308448492100, 24211092067820557572710,
  24212065108510548492710, 24213088101145134108060, 24214137791338470856300, 24215095024677280695760, 24217100781846688843630,
  24218119685058935531930, 24220104277271299264900, 24222087342351620235200, 24223085011649710757220, 24224153885717595197310,
  24230093801096360431780, 24231092416308810366600, 24235092067820557572710, 24237099145019849132080, 24245117140810428578930,
  24246111099234792996850, 24247081240415415985280, 24248107387013946137330, 24249110155137948286090, 24254124145009827469190,
  24257105243394584599080, 24258110282066216270280, 24264100753657804779430, 24265099852510839617090, 24266116749996928154220,
  24275126710428144629770, 24278094039160543410800, 24282100572341819435600, 24285106548827227306600, 24287100781846688843630,
  24288091121968347023280, 24290085011649710757220, 24291065612922135793530, 24300103894308448492100, 24307104479502660445330,
  24310081338888880537410, 24311102671620599215690, 24314057662447338737435, 24319118964025996518480, 24320057084420669745620,
  24322082819656217924290, 24323103827097441761320, 24324102774449268771520, 24328139671860785885700, 24330109309077106402290,
  24331131297892891840780, 24335114022367211270340, 24337136209098418707360, 24338136209098418707360, 24339101559364248113440,
  24341070162392010236590, 24343097127969098504320, 24344102319825528003940, 24347123577481661544690, 24351081604943660646600,
  24352061378849346467180, 24357096933976594001300, 24358115755801346977630, 24359105376581903001880, 24361126616530741131380,
  24367095752944700672490, 24369098372746853717260, 24373061378849346467180, 24375069322818001567270, 24377084424202830281100,
  24378069322818001567270, 24380173344819085750430, 24392084424202830281100, 24396096933976594001300, 24398095752944700672490,
  24402082490247187455500, 24403059107921106763670, 24405085280578447171750, 24407117971476415565060, 24413106687981907926360,
  24418063179204754298020, 24420138379743471085630, 24421145618931863352630, 24422145618931863352630, 24425086253469169878620,
  24426129650340561080220, 24428127095090952907730, 24429084876972416298160, 24432123646686089990430, 24433069900977560994870,
  24435166413347280151000, 24439123440493217963070, 24441119139469093027590, 24443088469235222884970, 24444092645137595152020,
  24448077536820376895120, 24449082864251996563090, 24452094700620035804790, 24453092147856556177940, 24455126340015427826270,
  24456069891008913172000, 24459095727369239161300, 24460155427224393469880, 24464072741615620121270, 24465094700620035804790,
  24466095770031419908650, 24471068072240492567940, 24472109425647951824420, 24476132914306407404940, 24478067517686308200150,
  24481089600050193604020, 24490092548638791852050, 24493116509021412363620, 24494075508482845143950, 24499152550403668952090,
  24501082864251996563090, 24503074545189010858730, 24505088469235222884970, 24509108544373466483900, 24515060910712121011480,
  24517067208671554442860, 24518122530775435905820, 24524105636924846660630, 24525087576999257471490, 24527118455441824183580,
  24528119921476566102320, 24534141989876926458930, 24535085481780302924600, 24536091446822898468150, 24537098245988474201300,
  24544090670329502701940, 24548134026562758507190, 24551095004855668655830, 24555078598560419534760, 24565091895124914871680,
  24568125637972841093790, 24571120769865365472620, 24573080069809168252850, 24575119778956339030320, 24576080851131496313830,
  24577086742278743181540, 24578120980399457450950, 24579146954245789597860, 24580135278194188047230, 24581123646686089990430,
  24590067619861913322960, 24591128236224020581930, 24594091748211715116690, 24596120311770005159670, 24597111319463913871210,
  24601149365866357766740, 24604107197563083712830, 24605071286330526180770, 24608113086159347497300, 24609109662947222245520,
  24613080912871997279140, 24614111138917384753050, 24615072125417902128290, 24616102965759451278610, 24618092651395417634090,
  24623114428376967492720, 24629157250439961409430, 24635060566460659374260, 24641133091302178398950, 24643138379743471085630,
  24646094129462764414950, 24651099718366381572200, 24653103214661189354140, 24656084420079402279580, 24658094129462764414950,
  24661117623278763972800, 24665151372573312388250, 24674083695306968603900, 24675121986834715247830, 24676139004947040898980,
  24677109958878303718620, 24680105079366850184500, 24681084335240360299810, 24682118622112349035690, 24683130440224674266520,
  24684122045831936519700, 24685094941689252548790, 24687106675251161458370, 24688089540252407322760, 24691109492875095773190,
  24694083881070824333260, 24696138379743471085630, 24697146264317074728340, 24698151372573312388250, 24699119873743778575750,
  24700104277271299264900, 24701125386913629783030, 24708092679604181050500, 24709120114719294366360, 24713110119166686477600,
  24717120512781798370550, 24722150318968155809980, 24724114209789029367740, 24726118010924198475240, 24730138379743471085630,
  24735117699615012523500, 24736091352925494969760, 24739087541261422011660, 24742120114719294366360, 24744117213538021869730,
  24748088434273747685000, 24749142899594708516200, 24753162358696199069360, 24754087401425079821530, 24757123646686089990430,
  24758107848311663412330, 24760145012685645188280, 24763122655777063548110, 24764113110343156140100, 24773064384094720163360,
  24774122593080933412160, 24778078884372032397930, 24779117815223236534270, 24785143900429294086030, 24792133271487233425730,
  24796119921476566102320, 24797162358696199069360, 24799096566184078968330, 24800096104772518989780, 24801083881070824333260,
  24806115445217376777900, 24807110429127690167230, 24808089942645876280100, 24809096626551106962620, 24811135058405120859500,
  24812116373884220696400, 24813108094522507315820, 24815099223215736298390, 24816122285364346744640, 24817104277271299264900,
  24818125386913629783030, 24819071169868584195860, 24820120614823500112960, 24822106046578380855680, 24825110263834670655130,
  24826129277626613107900, 24827119873743778575750, 24833109144869804279000, 24838162358696199069360, 24840095592060620881810,
  24841100600023498011740, 24847065239865777636780, 24853112683738184712960, 24858101031949042474300, 24859074919127710083330,
  24860116373884220696400, 24863067928578972614600, 24864133832381899936160, 24867114794099863726160, 24868091564044447254370,
  24871117250101133900840, 24887151372573312388250, 24895084440713566007620, 24904087947447527239110, 24907086742278743181540,
  24908099115106575256230, 24909133832381899936160, 24910105466369262654640, 24913140763853705535610, 24917090240669143867520,
  24920089942645876280100, 24922108094522507315820, 24927138379743471085630, 24930085737152843330890, 24931099223215736298390,
  24935094977171253109770, 24936118538429852330530, 24938135278194188047230, 24939120980399457450950, 24944105188419185007120,
  24947142899594708516200, 24949133271487233425730, 24950088606138418971800, 24951103675147699610600, 24962095004855668655830,
  24970135058405120859500, 24971126523506814508250, 24974111119056405036750, 24976107197563083712830, 24977094345865854353140,
  24980113812385742872600, 24996091564044447254370, 24999119873743778575750, 25000123305356026295850, 25001122593080933412160,
  25004162358696199069360, 25006146954245789597860, 25010080228492851169890, 25014122530775435905820, 25015173344819085750430,
  25022138379743471085630, 25026094692939543875760, 25031109492875095773190, 25032126249517072627100, 25033065108510548492710,
  25034111178758074901800, 25035139004947040898980, 25042105144655439009130, 25062116925748376369310, 25064146264317074728340,
  25074096626551106962620, 25077127293117225869530, 25078105144655439009130, 25079080851131496313830, 25080088434273747685000,
  25082118455441824183580, 25084110429127690167230, 25086140763853705535610, 25087124292071301366140, 25088099718366381572200,
  25094155427224393469880, 25095155427224393469880, 25096098867306285271360, 25098114075558826046330, 25100162358696199069360,
  25101123508752868667070, 25102105265469648751180, 25103086904798702951100, 25104056133559862684450, 25105055633006071818670,
  25106094169455546314130, 25109135732817928814810, 25110073059929908761130, 25112061367056407150490, 25114099008153684088750,
  25115120717917196701600, 25119173344819085750430, 25121149365866357766740, 25122173344819085750430, 25130085584691893921270,
  25134146954245789597860, 25136061367056407150490, 25138086904798702951100, 25139128801346123215360, 25140088757656469177830,
  25142090778745639488850, 25143090778745639488850, 25151075900487058945245, 25152060515735638621970, 25153101689884335141980,
  25159104633906139644970, 25160116890350109318070, 25161136968957488486570, 25163063845880588414070, 25165091156947529735620,
  25166097796233875343680, 25169098202272557586330, 25170119545845550345840, 25171065714221347763240, 25172111796238145586260,
  25176090747649475535220, 25179147695325511135070, 25187100902543929716940, 25190129777730818854520, 25191072530992481978740,
  25193075400840386266195, 25194139332845269128890, 25195092502278022677270, 25196090221013117882920, 25197096805127280962700,
  25198102377605300802830, 25199119638438804473810, 25200108437583740725360, 25203111380377807805240, 25206093493379773764240,
  25209074472253691493330, 25212111967548544888090, 25214081750138669726180, 25215076554512694356550, 25216066020496025817510,
  25220105046881710626180, 25225109958878303718620, 25226088275410936231570, 25233093981792153730840, 25234104960767077277000,
  25235085712101945621000, 25237067074634708445300, 25238109459205030294150, 25239073451836996258050, 25240085957464472115710,
  25242096220380743000540, 25243098445110097402430, 25248140022773983998400, 25250090339533023753070, 25252087132891271403210,
  25253066616734812561280, 25256111967548544888090, 25259092904974773534900, 25260088683715073881220, 25265091569660847289680,
  25269081748034514010900, 25273112591358774863600, 25275166413347280151000, 25276109375522533588970, 25277086887196163640980,
  25279173344819085750430, 25282106972238772905860, 25284145618931863352630, 25285076721109593433760, 25286092761546019940870,
  25287112364076264088040, 25288108498466729397920, 25289078153341825321320, 25291098445110097402430, 25292125982834601805480,
  25293087163579985803650, 25294143387496350210530, 25296103628133038492540, 25298090221013117882920, 25299096631209853844000,
  25300096391787736114760, 25302095903452809470530, 25303121928183520723850, 25304102930702447802340, 25305122285364346744640,
  25306109193849494034500, 25307072864612053066170, 25308091300834904256620, 25311101039187551657520, 25314150318968155809980,
  25315135278194188047230, 25317079762389066753650, 25318093503599498721160, 25319139671860785885700, 25320096847892848635290,
  25321104582172966842780, 25324121304752214982480, 25325127495144299044720, 25326122530775435905820, 25327110768143206924050,
  25329098838211123635040, 25331095596261419095240, 25332151372573312388250, 25335113555961436739230, 25340093699785450234960,
  25342103675147699610600, 25343085590869500295330, 25345082080667715366220, 25346096118043921070410, 25351064801862621392000,
  25353076694419186129980, 25358126523506814508250, 25361086495733127542140, 25366098478685954350900, 25370122910567916557980,
  25371145618931863352630, 25374153885717595197310, 25375116646009855945230, 25376127095090952907730, 25377104982226312979780,
  25379096323775685239940, 25380102286957790937730, 25381092382736369250080, 25384101513702068317620, 25386099904090580019780,
  25387102295164603052020, 25391091148864543979630, 25401146954245789597860, 25402098295398401788730, 25405098602771020789200]

def emitB4 : List Nat := [
  25406116646009855945230, 25410118664217674399130, 25413146954245789597860, 25414116076341609878460, 25417102637578013147670,
  25419150318968155809980, 25420159481875474551540, 25421112054316985144990, 25422127911871263050400, 25423119273101371149240,
  25424099418343878534200, 25429090940967930587090, 25438122105179291717840, 25439083347391187445530, 25441131003754039777840,
  25442089560911200392650, 25443105951452812178700, 25447117250101133900840, 25451139332845269128890, 25453153885717595197310,
  25454085719923612034630, 25462124669474581194620, 25463099718366381572200, 25467123508752868667070, 25472097568480759723160,
  25474127911871263050400, 25475092502278022677270, 25479117893044640954820, 25480084788184778749200, 25481107414373744326070,
  25484079329428318673040, 25486148495752587870430, 25487100008055129173600, 25488125895497802117940, 25490076473485075770780,
  25494147695325511135070, 25496117472332501747940, 25497096323775685239940, 25499096118043921070410, 25504099443004803486140,
  25505069489695218786510, 25506078856759691868670, 25507126340015427826270, 25509066646664187709470, 25511077129594681614675,
  25512068081087085196370, 25513094316247172944610, 25514082421370948365680, 25518146954245789597860, 25520129777730818854520,
  25523119273101371149240, 25527132569444646693240, 25528140022773983998400, 25530115055362909648370, 25536135278194188047230,
  25545127293117225869530, 25550162358696199069360, 25551087580768575269600, 25552059803646194141304, 25554092917824116774060,
  25558150318968155809980, 25562090221013117882920, 25563089560911200392650, 25568151372573312388250, 25569100462375075549190,
  25571114822794288005690, 25577137235639959308190, 25578123646686089990430, 25581088487793842501770, 25582092382736369250080,
  25587173344819085750430, 25588094517897022860180, 25590132740388980286250, 25597125895497802117940, 25600114765487540915850,
  25601116784900977551900, 25602124669474581194620, 25605106649838187171650, 25613083347391187445530, 25615105046881710626180,
  25616159481875474551540, 25619134026562758507190, 25620122164880961582880, 25622084543136606715950, 25623105951452812178700,
  25628080572308313162340, 25630095164539700443150, 25642120066057397854640, 25644099277711783974030, 25645096060661287340010,
  25654090339533023753070, 25658095100359776974250, 25661153885717595197310, 25668089131390428156400, 25670086924197351129370,
  25671084543136606715950, 25672125982834601805480, 25674101674440316628230, 25682120666237495117170, 25684103479154491686170,
  25688102213397998679550, 25695124669474581194620, 25703101010264899536060, 25705090474568834099800, 25711122910567916557980,
  25715140022773983998400, 25720098809200369316700, 25721123172020717601200, 25722151372573312388250, 25723115055362909648370,
  25730128571450940968380, 25733157250439961409430, 25735107400684488252660, 25736122105179291717840, 25744111924445029876870,
  25745111924445029876870, 25746095421329844620060, 25747127095090952907730, 25749102311598460489320, 25750151372573312388250,
  25753162358696199069360, 25758102612121911153340, 25763140022773983998400, 25764082818485326288960, 25765096847892848635290,
  25769120980399457450950, 25771096220380743000540, 25772116475065522352250, 25773096524603977481700, 25774128236224020581930,
  25776100367136260436640, 25778098202272557586330, 25781139332845269128890, 25783146954245789597860, 25784162358696199069360,
  25786128236224020581930, 25787153885717595197310, 25788128685737899204600, 25791131003754039777840, 25792136209098418707360,
  25793079762389066753650, 25794111238818315503900, 25796119273101371149240, 25797097295874277634230, 25799104582172966842780,
  25802087048532878290170, 25803104982226312979780, 25805082136287031003970, 25806121583321760012150, 25810107834015735316400,
  25812076721109593433760, 25816155427224393469880, 25818085719923612034630, 25824102286957790937730, 25826132236080444017330,
  25830109031508266415640, 25836101039187551657520, 25839125982834601805480, 25840139671860785885700, 25841116784900977551900,
  25842132569444646693240, 25844075400840386266195, 25847146954245789597860, 25850086924197351129370, 25852162358696199069360,
  25854108437583740725360, 25856100923995493180810, 25862139332845269128890, 25871150318968155809980, 25874120980399457450950,
  25876093503599498721160, 25880120717917196701600, 25881114765487540915850, 25883128236224020581930, 25884095100359776974250,
  25885089131390428156400, 25890120980399457450950, 25891145618931863352630, 25892101674440316628230, 25898106649838187171650,
  25899119273101371149240, 25900125895497802117940, 25902157250439961409430, 25903070385131754890460, 25910068050559251724210,
  25912115568295853523870, 25913062970792756684190, 25915076586480628310120, 25918069563141789092780, 25919057091567611159040,
  25925073899963770048430, 25928077863844115147730, 25932076554512694356550, 25935094003266750387220, 25937083239348393048560,
  25941123508752868667070, 25942115819092697494100, 25943095894791050592050, 25944094060758823945090, 25945062183839633173940,
  25947126431340263459000, 25949134632808976671520, 25950107635989462354600, 25954101385446820994750, 25955085512389448341400,
  25958101251416519721340, 25964090799530266353000, 25968065817412655034280, 25970100874013239892870, 25972069934170740147650,
  25973076554512694356550, 25975111838791401287650, 25976065817412655034280, 25986126431340263459000, 25987114539489221743430,
  25991057238763470003400, 25993152550403668952090, 25995109731794310020480, 25998152550403668952090, 26000118748963944308840,
  26001099344723914123510, 26007079697908767689360, 26009094601230838451630, 26011166413347280151000, 26012099724713573153100,
  26015110336961139118000, 26017125637972841093790, 26020123928394859657400, 26021109193849494034500, 26023114345845549925520,
  26025101340570156300860, 26028101340570156300860, 26029086004047160157400, 26031080523791703719710, 26032061828850562248950,
  26039086004047160157400, 26041057908914572940215, 26044116819927283063940, 26045079608329189868370, 26049084593345917216940,
  26051151372573312388250, 26053070403383635844600, 26059093168447486665670, 26060114938402512016450, 26063104696341306041830,
  26070135058405120859500, 26071090614005749092130, 26080060389664630712640, 26082082757787112618200, 26085061944043244289040,
  26086122045831936519700, 26087087498170020437930, 26088101892857735778720, 26089073728197919878440, 26092134426616104644180,
  26093119826237750989770, 26094136968957488486570, 26097104217390880818680, 26102056545008204812940, 26103104277271299264900,
  26106105003731697612060, 26114102452387535475290, 26118088428116743898930, 26122138081213839588820, 26124104000846986464860,
  26126061727322498412684, 26127095727369239161300, 26131088417863487592070, 26132100119714745776500, 26133173344819085750430,
  26137130037485682887120, 26141142899594708516200, 26143080339352687127120, 26144106473733007085300, 26149081048292255664890,
  26151139671860785885700, 26152082606487812535240, 26157104717239955236430, 26159072556974141819260, 26165136968957488486570,
  26172104633906139644970, 26174071986135993722250, 26177112054316985144990, 26178056545008204812940, 26179107963420848073750,
  26185089954589028302840, 26187089954589028302840, 26188121526983582829580, 26191109144869804279000, 26194112431720264973460,
  26195096029898793293590, 26197109442412415096940, 26198173344819085750430, 26202078805681037731430, 26205104633906139644970,
  26212143900429294086030, 26214114400790743101930, 26216106972238772905860, 26222073411993569227010, 26223080246582581139110,
  26228103525472314186540, 26230091799817334231020, 26234086451858605591830, 26238128346722382447780, 26242089162254650188300,
  26248109442412415096940, 26249173344819085750430, 26252148495752587870430, 26257112230145690723650, 26262099019981006579250,
  26263080679502569491180, 26274093644326035989080, 26279121470961027342880, 26280127393620584404540, 26283089162254650188300,
  26286111753865200831100, 26289136968957488486570, 26292084782483524318830, 26297125895497802117940, 26311130037485682887120,
  26313096029898793293590, 26326121470961027342880, 26329111441665027218960, 26333111319463913871210, 26336104277271299264900,
  26348112431720264973460, 26354084543136606715950, 26355133454978620107700, 26356070520443535865060, 26360073688179976122400,
  26361078113766837796170, 26364092183634769656780, 26365173344819085750430, 26366078750963477619980, 26367094198641995343650,
  26368059011734085863010, 26371065203595890209180, 26376080948740389182930, 26377054062400194462770, 26379081960672761704500,
  26381072234112428427615, 26388116925748376369310, 26389139671860785885700, 26391106739067587353580, 26395088556138314804740,
  26397075160077303658730, 26399073957237419569966, 26406107834015735316400, 26408075003980261777950, 26410075826315307018755,
  26411093503599498721160, 26412061393266583738810, 26413125637972841093790, 26415105556970108898670, 26417071589463613711030,
  26420097486930868430100, 26421128346722382447780, 26426058658427653162880, 26429126710428144629770, 26432080618242305340000,
  26434083933290264144770, 26435070176933621629765, 26438105057698369333590, 26441105090218723197370, 26444173344819085750430,
  26446059835108266066030, 26447108575095456853600, 26448081784921313489430, 26449079771881236426980, 26454166413347280151000,
  26460080760182614171330, 26462116749996928154220, 26463099693017825540320, 26464112683738184712960, 26465069979789338437460,
  26469064973156745635330, 26472067135936836782660, 26477085148165592343900, 26479105636924846660630, 26480094754549288235060,
  26481060040020080874050, 26483133271487233425730, 26485155427224393469880, 26492173344819085750430, 26494083087857887624620,
  26495091197460751927420, 26497074545700925676215, 26500079447409082325700, 26503126340015427826270, 26505121526983582829580,
  26507162358696199069360, 26512121583321760012150, 26517104428560115227900, 26519072277678385650646, 26522145012685645188280,
  26524080799332819345400, 26525099623638802372570, 26526138687460057753180, 26530096876505171445610, 26531103036244324589230,
  26533155427224393469880, 26538090843841560022000, 26539122407317077682820, 26541129400327539026050, 26543097707622401606770,
  26547144441101506788800, 26550092141905946064830, 26551124516799859886720, 26552117360599495766690, 26564173344819085750430,
  26570152550403668952090, 26575093381646767782980, 26576077735550900006860, 26577111482732846745500, 26578159481875474551540,
  26579092582773813360170, 26580095052493710314520, 26584142434394552167290, 26586126900910094336700, 26588108483211196309540,
  26590122407317077682820, 26592114736956851091780, 26597082757787112618200, 26604108212517976627360, 26607091906739318035590,
  26609098896486346828500, 26611089011052032519180, 26612091221847703452750, 26613120717917196701600, 26621137791338470856300,
  26623118580183566435340, 26624133091302178398950, 26629120717917196701600, 26631073869296248768155, 26632120017631153096750,
  26633139332845269128890, 26635130440224674266520, 26638144441101506788800, 26639100952669347952370, 26641081208469696494310,
  26643120262142111738390, 26646102921957366353000, 26647105880697800016700, 26653148495752587870430, 26657077209456679347400,
  26665123440493217963070, 26666114996711715124400, 26674130440224674266520, 26679083368398300515330, 26680076279220652222330,
  26681067275503700016030, 26684082282805763400070, 26685098705453041061200, 26686120563672493445270, 26688130037485682887120,
  26689119545845550345840, 26690090494730131251660, 26691086899514686976110, 26692166413347280151000, 26693119778956339030320,
  26694104307346509904450, 26696087221603720672300, 26697133832381899936160, 26700086927728424612380, 26702134224589031468980,
  26704107580123395268200, 26705094323643622985960, 26707109870926989190330, 26708122164880961582880, 26717152550403668952090,
  26720173344819085750430, 26721146954245789597860, 26722152550403668952090, 26723097221450714072990, 26724153885717595197310,
  26725087375537491399520, 26726122164880961582880, 26727136456024544611070, 26728134632808976671520, 26729151372573312388250,
  26731140386450425707140, 26742152550403668952090, 26751105057698369333590, 26753080385144506314250, 26755150318968155809980,
  26757085165917076295300, 26758121583321760012150, 26771116509021412363620, 26772133091302178398950, 26775118455441824183580,
  26781069979789338437460, 26783129400327539026050, 26786126805215584175200, 26790092676465941577070, 26791116207491030656750,
  26792114400790743101930, 26797109662947222245520, 26799103423854811591550, 26800139004947040898980, 26803105636924846660630]

def emitB5 : List Nat := [
  26805110373725886411090, 26806133091302178398950, 26816071532868647343390, 26820103827097441761320, 26825085081876773337250,
  26827092367513349108240, 26829106399198500539480, 26834111099234792996850, 26837103694015629736370, 26839103036244324589230,
  26840113256687231324480, 26842111198738101528520, 26847130440224674266520, 26848141989876926458930, 26851166413347280151000,
  26855120017631153096750, 26862085228296604280020, 26865111020338920245200, 26866102921957366353000, 26869144441101506788800,
  26874096247250441208800, 26875151372573312388250, 26881173344819085750430, 26885099127061149303980, 26891144441101506788800,
  26893079888242396512315, 26894114400790743101930, 26895173344819085750430, 26898136968957488486570, 26925105090218723197370,
  26928108346948679191900, 26932138379743471085630, 26941136709202624453980, 26943137235639959308190, 26954067135936836782660,
  26963122407317077682820, 26964120874578364145580, 26970086204070090335230, 26973153885717595197310, 26974135732817928814810,
  26976106713492125842410, 26982153885717595197310, 26984152550403668952090, 26989078354349891008920, 26997074545700925676215,
  26999112545487134794530, 27000153885717595197310, 27001139332845269128890, 27004086138581971546170, 27010079549896538535485,
  27014112230145690723650, 27017157250439961409430, 27018138687460057753180, 27028142434394552167290, 27029126431340263459000,
  27035130169937950387330, 27036102172764054106990, 27047148495752587870430, 27048104982226312979780, 27051140386450425707140,
  27054085375380150333060, 27060108792833452349220, 27067149365866357766740, 27071153885717595197310, 27073150318968155809980,
  27083079447409082325700, 27085090843841560022000, 27088109888455477464490, 27091112683738184712960, 27103120512781798370550,
  27112173344819085750430, 27122141989876926458930, 27123134632808976671520, 27133130304168153708740, 27137151372573312388250,
  27138081876139595544350, 27141138687460057753180, 27146094770011216325130, 27147130578157895589890, 27155086138581971546170,
  27159166413347280151000, 27161073869296248768155, 27166096876505171445610, 27167119007599050208040, 27169075965767968285940,
  27171083368398300515330, 27178083771001729922560, 27183166413347280151000, 27185104685908336916050, 27189130718020315337280,
  27192152550403668952090, 27193081208469696494310, 27194122164880961582880, 27197157250439961409430, 27204110749004445101200,
  27208146954245789597860, 27211087375537491399520, 27224118332236980303160, 27225117623278763972800, 27227150318968155809980,
  27231058658427653162880, 27233099718366381572200, 27234105090218723197370, 27243083771001729922560, 27249123305356026295850,
  27264113355453466283610, 27265149365866357766740, 27268123716372783151360, 27273137791338470856300, 27280151372573312388250,
  27281173344819085750430, 27284097221450714072990, 27292136456024544611070, 27298071532868647343390, 27299166413347280151000,
  27305149365866357766740, 27315120512781798370550, 27320114736956851091780, 27326152550403668952090, 27331108483211196309540,
  27355139332845269128890, 27359144441101506788800, 27365123305356026295850, 27370155427224393469880, 27384157250439961409430,
  27387104685908336916050, 27396100952669347952370, 27402070176933621629765, 27410120563672493445270, 27424104685908336916050,
  27425082876020857518980, 27426079945177688053555, 27427092701599476642420, 27431073897564480226710, 27442100558529662543620,
  27450092850548514643500, 27453100414642288022620, 27454103703462961567980, 27459137235639959308190, 27462173344819085750430,
  27463105243394584599080, 27465115114360130920250, 27468085333135066383520, 27472073897564480226710, 27481129906764867213600,
  27489079945177688053555, 27490097692066266761120, 27491061529396513276950, 27492065867583211161150, 27493083078240190321570,
  27494057186840206841865, 27495107920099480682400, 27498109509752736910380, 27506100021127026459800, 27511065479915710309350,
  27512082490247187455500, 27513111059709049838610, 27515077408538734354000, 27516099043677700132430, 27523132569444646693240,
  27526117397705289732050, 27527173344819085750430, 27529107992406375613840, 27530105221368143975640, 27531084579373580166660,
  27538136456024544611070, 27542090721809667875970, 27544084579373580166660, 27546132569444646693240, 27550136456024544611070,
  27553108575095456853600, 27556173344819085750430, 27563132569444646693240, 27567108575095456853600, 27570099043677700132430,
  27571149365866357766740, 27572121087352348618430, 27573085392025383804720, 27575088531231701680220, 27578080618242305340000,
  27580120874578364145580, 27583095343188381820840, 27584097025653955037910, 27585097025653955037910, 27586143387496350210530,
  27589107455554310415240, 27590121087352348618430, 27595110806530969995710, 27597079785704132796420, 27599067638575309112010,
  27602085648194004627700, 27603173344819085750430, 27604064518415074081340, 27605076233056444622385, 27607110355326617191000,
  27609114539489221743430, 27611073885576658416590, 27617120874578364145580, 27627078029279809382870, 27631126340015427826270,
  27645147695325511135070, 27654131448271665486180, 27656120874578364145580, 27661139671860785885700, 27663104147980587276340,
  27665062889873850516170, 27668069366945342302610, 27670151372573312388250, 27672173344819085750430, 27673140763853705535610,
  27675107992406375613840, 27679117068607948844060, 27682102992133092939470, 27683069366945342302610, 27684132073475235299520,
  27686139671860785885700, 27687092805948249568200, 27688100746622982118570, 27689152550403668952090, 27691102992133092939470,
  27692152550403668952090, 27694113943106558546120, 27695103722384443088360, 27696127095090952907730, 27700060932339419148810,
  27703138687460057753180, 27704077841754107233925, 27705150318968155809980, 27712131755988252153720, 27713124145009827469190,
  27714082430376915427170, 27719083970006801590030, 27721069665687551072420, 27722136968957488486570, 27728150318968155809980,
  27733115506567262453060, 27735100831369252028300, 27739112296886761600590, 27740166413347280151000, 27741101039187551657520,
  27742126997529203454090, 27743064881980218874960, 27744091322734721385960, 27745089273268223677440, 27748088273390530123080,
  27752134426616104644180, 27753128018824154217890, 27754086154913838641940, 27760159481875474551540, 27762112753587129932470,
  27764113943106558546120, 27766115414683001909000, 27769109941226048472910, 27770064194298086579730, 27773078541143993858010,
  27774117472332501747940, 27777113916825334483430, 27778124366421086241330, 27779099412188138112060, 27781123040439871826080,
  27782141564280782270980, 27784077218815594396450, 27785077218815594396450, 27791131003754039777840, 27792114996711715124400,
  27794058340238396102855, 27796103646912386734550, 27801075525971777981640, 27803127095090952907730, 27807091580903119412500,
  27809058340238396102855, 27811146264317074728340, 27812147695325511135070, 27813116715214284390980, 27814099344723914123510,
  27815103913594857556150, 27817155427224393469880, 27818116715214284390980, 27819139671860785885700, 27821132073475235299520,
  27822110355326617191000, 27825126159830372799500, 27827069297949156675570, 27832102843593883059850, 27833080716439676411070,
  27835076104799380136620, 27836100319854848477180, 27837131297892891840780, 27838111503330176375600, 27839078104993624775485,
  27841105155578432995220, 27844100627782016876760, 27845135968122902916750, 27849101861361646749770, 27850101767464243251360,
  27852115724305257948680, 27859173344819085750430, 27860137235639959308190, 27861061557712301848130, 27863121696959346515300,
  27867100641690224960190, 27872162358696199069360, 27873102132294553305020, 27874078887532588682140, 27875122593080933412160,
  27877090830788431944890, 27880073816329265011920, 27882094294090590763790, 27886132073475235299520, 27887132569444646693240,
  27888087239805400251540, 27889139004947040898980, 27891121754266093605140, 27893132569444646693240, 27895147695325511135070,
  27896115506567262453060, 27898173344819085750430, 27899124218270228389920, 27900111732745868799680, 27901109325647118478580,
  27902121141260834967200, 27905106599205167606180, 27908125895497802117940, 27915089421718993054960, 27922113455204916851800,
  27927090317203278709940, 27931087109486813874800, 27934086686963131089800, 27941097718006618531600, 27943173344819085750430,
  27945100627782016876760, 27946075412557502964530, 27950129277626613107900, 27953128801346123215360, 27954118791607932173430,
  27958109941226048472910, 27963067555021107176910, 27964108683371843374240, 27965117286798422790460, 27966085617166986252600,
  27969067588410119832060, 27973094563265720717200, 27974112591358774863600, 27975109923604898538920, 27978119545845550345840,
  27979081801829274824860, 27982095164539700443150, 27983098534897457055180, 27985093554855377209290, 27986151372573312388250,
  27987086104371626215740, 27988141989876926458930, 27993088817205773181950, 27994136209098418707360, 27996139671860785885700,
  28000106751879888914070, 28003140763853705535610, 28006106190985222403620, 28009099891170681581740, 28010091648623468511920,
  28014088452767536989750, 28015166413347280151000, 28020108036042808491590, 28023062815305372133725, 28024101597575987386670,
  28034095968656257171400, 28037129650340561080220, 28039121141260834967200, 28040068500644786000100, 28041087664055068442370,
  28044093762547162527310, 28046133641899950229220, 28049143900429294086030, 28051130578157895589890, 28053128918306520847280,
  28059134632808976671520, 28061134426616104644180, 28062136968957488486570, 28063124982000016235660, 28065106362138544596320,
  28067123857220181968760, 28068125895497802117940, 28070106337507990272330, 28071149365866357766740, 28072096729548272165270,
  28073142434394552167290, 28074119873743778575750, 28078141564280782270980, 28082091834369628900200, 28085104217390880818680,
  28088157250439961409430, 28092096986950471794600, 28095118130209907127970, 28096111462177854924530, 28100116819927283063940,
  28101129156413007784470, 28102152550403668952090, 28103141156060837068440, 28107100838463966763640, 28113120512781798370550,
  28114100373909034146250, 28118173344819085750430, 28120100428256994005820, 28121115946889963958100, 28122094294090590763790,
  28125144441101506788800, 28128146954245789597860, 28129086911848403630800, 28132103731858626648780, 28136096909990014978430,
  28138099344723914123510, 28139109358869740398350, 28140125469901657929980, 28142093896351975730480, 28145068800157614991560,
  28147112431720264973460, 28149107373362066883920, 28150136968957488486570, 28151081139932055470470, 28153106985353528883970,
  28154094563265720717200, 28155093956796604205640, 28156151372573312388250, 28165065332750097501960, 28170107373362066883920,
  28173150318968155809980, 28174127293117225869530, 28176089697408403504840, 28177135278194188047230, 28180088430168657315380,
  28183096767266374401800, 28185123857220181968760, 28186173344819085750430, 28187077617927195643240, 28189139004947040898980,
  28192097280945188023920, 28193093089655220860350, 28195123716372783151360, 28196106932997388344530, 28197126431340263459000,
  28198106362138544596320, 28201075742875258653920, 28204081801829274824860, 28205110768143206924050, 28207087401425079821530,
  28210116141701319676330, 28212101582273765579000, 28216072557813384822560, 28218115233409155983430, 28222093554855377209290,
  28228120980399457450950, 28234104138104043263600, 28237113812385742872600, 28246061707593727048470, 28248092632633686051800,
  28251114048927651851500, 28255125808917174686800, 28263093762547162527310, 28270123172020717601200, 28271088273390530123080,
  28286127095090952907730, 28287090649811413944280, 28291103572005669442970, 28293142434394552167290, 28294152550403668952090,
  28296155427224393469880, 28304092477639882711390, 28310073346392677961525, 28312159481875474551540, 28316113232147341708820,
  28317091580903119412500, 28322113158886940788100, 28325114291200605204730, 28327132236080444017330, 28330106473733007085300,
  28331075742875258653920, 28335132073475235299520, 28340127806050169745030, 28342089193214427239590, 28343162358696199069360,
  28346119499868457859540, 28349147695325511135070, 28353127495144299044720, 28354140763853705535610, 28356103913594857556150,
  28357093956796604205640, 28359113683351694513500, 28363094789372306593820, 28364125895497802117940, 28366125304608638417870,
  28367137791338470856300, 28369092246556325565670, 28372110981123183713390, 28373104167762987397400, 28378095269718663588510,
  28382108377069183891800, 28385073421596423384250, 28388116043821256014700, 28389107224408737419520, 28390124516799859886720]

def emitB6 : List Nat := [
  28392106573984473279090, 28393115537383927827140, 28396116715214284390980, 28399108377069183891800, 28402096767266374401800,
  28404103798430436940560, 28408151372573312388250, 28409126805215584175200, 28414095269718663588510, 28415073421596423384250,
  28417088430168657315380, 28418093165152050814460, 28422099151013256563520, 28431101438058742428370, 28435124902948221164520,
  28436074520647866582070, 28437105265469648751180, 28442147695325511135070, 28448108361997590986100, 28450069665687551072420,
  28451124982000016235660, 28457121195461509660590, 28458150318968155809980, 28459093237903694447420, 28460150318968155809980,
  28463126900910094336700, 28465126159830372799500, 28466096729548272165270, 28467114938402512016450, 28472089697408403504840,
  28478146954245789597860, 28479112591358774863600, 28481129650340561080220, 28487102765839711631880, 28491151372573312388250,
  28493121470961027342880, 28497111732745868799680, 28500106599205167606180, 28504088287541952680840, 28507081487416534670930,
  28508081487416534670930, 28510131913471821835110, 28514139671860785885700, 28516106337507990272330, 28518124592845853738920,
  28525125386913629783030, 28526092198580221549450, 28527141989876926458930, 28528103572005669442970, 28530162358696199069360,
  28532133832381899936160, 28536132073475235299520, 28538128126933315260040, 28540109079934511173530, 28544142434394552167290,
  28548109442412415096940, 28550109923604898538920, 28551134426616104644180, 28552162358696199069360, 28553139332845269128890,
  28558115692908057902000, 28567149365866357766740, 28572120927348935154020, 28576135278194188047230, 28577126070940898627040,
  28580109325647118478580, 28583126805215584175200, 28595088018091463104200, 28598135968122902916750, 28601127597709300716600,
  28608075349114694586890, 28609119545845550345840, 28611086104371626215740, 28617147695325511135070, 28625122164880961582880,
  28626107678094787718020, 28629090649811413944280, 28639095164539700443150, 28640155427224393469880, 28641138687460057753180,
  28644134632808976671520, 28651107224408737419520, 28654117854058236798240, 28655157250439961409430, 28656121470961027342880,
  28657106573984473279090, 28666142434394552167290, 28668173344819085750430, 28670116043821256014700, 28678127293117225869530,
  28681124218270228389920, 28687098534897457055180, 28689102124220269459020, 28693107678094787718020, 28696115506567262453060,
  28698139332845269128890, 28699129650340561080220, 28701116715214284390980, 28703102765839711631880, 28710133832381899936160,
  28711147695325511135070, 28712122164880961582880, 28722151372573312388250, 28734120927348935154020, 28739146264317074728340,
  28748093070053777145620, 28753113455204916851800, 28760115537383927827140, 28766150318968155809980, 28771127095090952907730,
  28772124516799859886720, 28779071000373001058135, 28781093956796604205640, 28783089959370285864640, 28784090292450790824520,
  28789081454673233136140, 28790110597198873331040, 28796113890612999684700, 28797091397002701316850, 28798091397002701316850,
  28799102869646872177490, 28800126249517072627100, 28809101674440316628230, 28810114651849954412700, 28814098180486056594120,
  28818094532997063479430, 28820145618931863352630, 28821115630407854450270, 28822138687460057753180, 28825124516799859886720,
  28843113480299032906050, 28845110029800586813520, 28846084904340096325530, 28847121986834715247830, 28851136709202624453980,
  28856094593626275347520, 28857075385795667188535, 28858063393731145596600, 28859162358696199069360, 28860098002535823009540,
  28861118455441824183580, 28866112296886761600590, 28867133091302178398950, 28872098762957512345560, 28879081021843692468200,
  28888110012022804353540, 28889117250101133900840, 28891106142617534397490, 28895087541261422011660, 28900103295999188621850,
  28902097201697621230440, 28903087036029527549900, 28905137791338470856300, 28907120361645420270080, 28909072415730621297385,
  28911123857220181968760, 28916133091302178398950, 28919118580183566435340, 28921099517354588361330, 28925117854058236798240,
  28937116373884220696400, 28938115263394185945990, 28949106561397939207120, 28950155427224393469880, 28953127701337171072070,
  28954102385886874775110, 28961060389664630712640, 28966084324345629547660, 28976128236224020581930, 28982072191139970034170,
  28997140022773983998400, 29001098002535823009540, 29002133271487233425730, 29004173344819085750430, 29006115353892541145180,
  29017087541261422011660, 29020173344819085750430, 29022111648711760835880, 29028089489932081562350, 29029106561397939207120,
  29030173344819085750430, 29031079547363717381330, 29033097201697621230440, 29036126249517072627100, 29038119826237750989770,
  29042145618931863352630, 29048162358696199069360, 29053111099234792996850, 29060110559604844092000, 29066088075364257161280,
  29071113305948414685050, 29074108301937350383980, 29076098147895044585050, 29081114373280409383020, 29087087036029527549900,
  29088114938402512016450, 29096131003754039777840, 29100117776538468755060, 29105072415730621297385, 29113127293117225869530,
  29118118455441824183580, 29123090043414483286630, 29128089959370285864640, 29129138687460057753180, 29134126710428144629770,
  29138087036029527549900, 29141086745746149596310, 29145120361645420270080, 29148155427224393469880, 29151077601236184048705,
  29152148495752587870430, 29157124292071301366140, 29158102869646872177490, 29159134224589031468980, 29165106142617534397490,
  29172137791338470856300, 29190082747318952313620, 29200101674440316628230, 29211112296886761600590, 29224173344819085750430,
  29226109680114608436060, 29228105410157759950350, 29229077939029747331670, 29232166413347280151000, 29233074919127710083330,
  29237109425647951824420, 29238075061490296396760, 29239095710355198476820, 29240095281926193080100, 29241091988420052206590,
  29242095710355198476820, 29243139004947040898980, 29245104069240022967260, 29246096193583049429390, 29254090898851521925470,
  29255087196176899853600, 29256087421812446720000, 29260092297784402039350, 29273093234585293886030, 29275080902233183954000,
  29277134224589031468980, 29279105729091397709890, 29281105534242826388650, 29282094540555642826440, 29286118050528210636200,
  29287091828602616052940, 29289071958827089488530, 29295127193613917337840, 29298102197124602085800, 29301090977965858625880,
  29305061104926354690340, 29306095257526018306450, 29309090977965858625880, 29312112894765945390320, 29313112637441805725530,
  29316130037485682887120, 29322143900429294086030, 29325134026562758507190, 29330125222975532026270, 29339118050528210636200,
  29343140386450425707140, 29346143900429294086030, 29351095257526018306450, 29356116925748376369310, 29359084776785518466670,
  29360148495752587870430, 29366077478306459210480, 29367153885717595197310, 29369089551724245221930, 29376077478306459210480,
  29378092714189972482530, 29380095500086728385740, 29389133454978620107700, 29390138379743471085630, 29392106300675536109370,
  29394138687460057753180, 29399101003047288251950, 29401116407497697723450, 29406126159830372799500, 29408098422788659563030,
  29409106906921754273700, 29417108050630703128200, 29420072144726810335930, 29421094567055752977840, 29422097517434196606330,
  29424120163619147308280, 29425108050630703128200, 29428151372573312388250, 29432126431340263459000, 29433094567055752977840,
  29435138379743471085630, 29436099642512667679630, 29454096492383005992100, 29461118010924198475240, 29462112119890990606570,
  29463166413347280151000, 29465120163619147308280, 29467087492563067669790, 29468096162409566157280, 29469116680552204626120,
  29470134026562758507190, 29474127495144299044720, 29477127911871263050400, 29481121141260834967200, 29482099393743620125580,
  29483111360031920827360, 29486093017970326074230, 29492099067430680421500, 29494089551724245221930, 29503120717917196701600,
  29508108050630703128200, 29509097517434196606330, 29518087939628918553100, 29520130578157895589890, 29536130037485682887120,
  29544072144726810335930, 29548148495752587870430, 29551173344819085750430, 29552126159830372799500, 29554073418394447280230,
  29557096492383005992100, 29559153885717595197310, 29560108407280687233580, 29563093017970326074230, 29564118010924198475240,
  29566166413347280151000, 29572086718040504168260, 29575086971972369009850, 29577078235185600142790, 29579058529955124401960,
  29582141989876926458930, 29590153885717595197310, 29595099504924505965350, 29609090525048497072850, 29611107051186551375950,
  29615072036197681968900, 29616060009223725731380, 29618112319233139614760, 29619129650340561080220, 29623125895497802117940,
  29626138687460057753180, 29627092496112794368540, 29632122593080933412160, 29634166413347280151000, 29641173344819085750430,
  29642101751900037774790, 29645085252162964057320, 29648128918306520847280, 29657130304168153708740, 29662103534761678533140,
  29664091510845385766120, 29673151372573312388250, 29677090028956649442900, 29682135732817928814810, 29694060009223725731380,
  29699083180904296337950, 29701137235639959308190, 29702066520824085181770, 29705096886060833902300, 29712115475845272083360,
  29722134632808976671520, 29723162358696199069360, 29730105155578432995220, 29733120163619147308280, 29734159481875474551540,
  29738147695325511135070, 29740151372573312388250, 29747118050528210636200, 29748101798665516613800, 29749109358869740398350,
  29754128918306520847280, 29756106919951072077880, 29759135732817928814810, 29781131600946386794070, 29785132073475235299520,
  29786173344819085750430, 29788120017631153096750, 29790090492207745060950, 29791120411770838505500, 29792152550403668952090,
  29795115475845272083360, 29796106106494677538340, 29801135732817928814810, 29802099504924505965350, 29807137235639959308190,
  29808121033732917204570, 29814106106494677538340, 29824125222975532026270, 29831141989876926458930, 29838143900429294086030,
  29852166413347280151000, 29854146954245789597860, 29863166413347280151000, 29865166413347280151000, 29872072036197681968900,
  29885138687460057753180, 29898106919951072077880, 29908143900429294086030, 29916098739916027497060, 29920155427224393469880,
  29922125222975532026270, 29923127806050169745030, 29924146264317074728340, 29926088847113934762410, 29934123238466144787870,
  29935136456024544611070, 29942104928664320974520, 29943102527733224694700, 29956105904227222636960, 29964136456024544611070,
  29969166413347280151000, 29973123238466144787870, 29976083782598922125010, 29978070889661538470214, 29980095334998373173030,
  29983054364369101620810, 29986061461099908325005, 29989148495752587870430, 29992068219627493565740, 29993110410626297285630,
  29995157250439961409430, 29996113013956867762420, 29997127597709300716600, 29999152550403668952090, 30000077590818431257360,
  30001068175670186122055, 30002087382927109323080, 30003082483451400581660, 30005062539714600795790, 30007075006124229197860,
  30008146954245789597860, 30010135058405120859500, 30011084043846799536440, 30014133271487233425730, 30021093644326035989080,
  30027151372573312388250, 30028093510418455685010, 30031103932918535066700, 30033152550403668952090, 30041076721109593433760,
  30042162358696199069360, 30043149365866357766740, 30044094253597253636330, 30045127495144299044720, 30048152550403668952090,
  30050076233056444622385, 30053098838211123635040, 30054151372573312388250, 30058110336961139118000, 30059084043846799536440,
  30060115661609127812710, 30064082819656217924290, 30066115661609127812710, 30068157250439961409430, 30070059107921106763670,
  30072106448826393960780, 30073137791338470856300, 30079126070940898627040, 30086107197563083712830, 30087157250439961409430,
  30090113256687231324480, 30091152550403668952090, 30095094719847113444990, 30097089362975037410080, 30102150318968155809980,
  30103097256112793837840, 30105111000711828566720, 30109148495752587870430, 30111118496849750843880, 30115153885717595197310,
  30116121811903140772650, 30117139004947040898980, 30123107834015735316400, 30126126431340263459000, 30127096069467980995960,
  30128155427224393469880, 30129127193613917337840, 30130093748566034769280, 30131145012685645188280, 30133147695325511135070,
  30137150318968155809980, 30140097236291181797940, 30142087158157482281720, 30148153885717595197310, 30149077140869761568895,
  30151094140354034324360, 30152136709202624453980, 30153115724305257948680, 30154117068607948844060, 30162122407317077682820,
  30164126249517072627100, 30165104644284967769180, 30168147695325511135070, 30169115724305257948680, 30171083738857697102500,
  30174131600946386794070, 30178126431340263459000, 30180136209098418707360, 30182151372573312388250, 30183173344819085750430]

def emitB7 : List Nat := [
  30184131149742033989370, 30187166413347280151000, 30192134224589031468980, 30193143900429294086030, 30196105387761334015300,
  30201142434394552167290, 30202142434394552167290, 30204135968122902916750, 30207151372573312388250, 30208142434394552167290,
  30218157250439961409430, 30219096069467980995960, 30220166413347280151000, 30232145012685645188280, 30233124441327803532900,
  30239115882787180348910, 30240135968122902916750, 30241126431340263459000, 30242125222975532026270, 30244131448271665486180,
  30246101266220371425700, 30247118496849750843880, 30250142434394552167290, 30251110318629328301390, 30256143387496350210530,
  30260130578157895589890, 30264131003754039777840, 30266145012685645188280, 30270141564280782270980, 30274097256112793837840,
  30275145012685645188280, 30278131149742033989370, 30279166413347280151000, 30284104367769654464070, 30292138081213839588820,
  30294135968122902916750, 30302126070940898627040, 30303142434394552167290, 30306122407317077682820, 30307153885717595197310,
  30308150318968155809980, 30313126070940898627040, 30315119318045267027650, 30316153885717595197310, 30318141564280782270980,
  30320136709202624453980, 30321110318629328301390, 30322119318045267027650, 30328128918306520847280, 30331077538891842464410,
  30332050058421338794940, 30333066819395435406745, 30334065434529541174165, 30338122346154807508450, 30340083929364333321600,
  30342124746695042133720, 30343064796454083496980, 30344117854058236798240, 30347142899594708516200, 30350125386913629783030,
  30353136709202624453980, 30355129650340561080220, 30358112918490748926620, 30362136709202624453980, 30382080866530921878700,
  30384127193613917337840, 30385102336299996309940, 30386139332845269128890, 30388140763853705535610, 30392139332845269128890,
  30394102336299996309940, 30402151372573312388250, 30405157250439961409430, 30406092564140267596060, 30408095384239342589200,
  30410101916545074134230, 30414116306994339188420, 30415173344819085750430, 30416093435664454837180, 30417074481405148738860,
  30418108967302588386430, 30420119921476566102320, 30422095680650105553880, 30423096314742260958080, 30424089737086364301070,
  30427082459702449639960, 30428096314742260958080, 30430173344819085750430, 30431098120816771879200, 30433075793783618051735,
  30435074481405148738860, 30436089737086364301070, 30437133091302178398950, 30439084918774278970180, 30442108138607810163470,
  30446065241480829927605, 30447111258918824784150, 30449130304168153708740, 30450099223215736298390, 30452065809075312880660,
  30456058091042944155780, 30457143387496350210530, 30460104790731099651160, 30462120212759295332570, 30465071576901515330910,
  30473093953230906182470, 30475062913520944795520, 30495067891931028305580, 30496147695325511135070, 30504117104644023877050,
  30505118834434550093440, 30509159481875474551540, 30511129400327539026050, 30519112364076264088040, 30520125142003429700070,
  30522119183815063706240, 30524067542560680130190, 30526075904004882621290, 30528082987330473309060, 30529145012685645188280,
  30545151372573312388250, 30554146954245789597860, 30555162358696199069360, 30556145012685645188280, 30561088479541314696920,
  30562136456024544611070, 30563094937754568256450, 30565150318968155809980, 30566118291503726426810, 30571118010924198475240,
  30585145618931863352630, 30590118664217674399130, 30591124746695042133720, 30596103516191571061020, 30597128346722382447780,
  30599129400327539026050, 30604122468855733426600, 30606102992133092939470, 30609127597709300716600, 30610128571450940968380,
  30622128571450940968380, 30623141989876926458930, 30624122655777063548110, 30629120874578364145580, 30631093175041618127810,
  30633106486209615066850, 30634116011406316772980, 30636098142473521004160, 30637118706501035494330, 30643116819927283063940,
  30651107791250167643790, 30652151372573312388250, 30655105309766509667050, 30663137235639959308190, 30669135732817928814810,
  30679114456039502421620, 30682106486209615066850, 30683086406499435003500, 30684123372696348109280, 30690110191239070527090,
  30691151372573312388250, 30693062899294031154190, 30697111319463913871210, 30699107920099480682400, 30700149365866357766740,
  30701082300577621904100, 30702102561403290173740, 30703107920099480682400, 30707061037469556474430, 30710152550403668952090,
  30712137791338470856300, 30717101767464243251360, 30718162358696199069360, 30719078917607799321690, 30720131913471821835110,
  30721094666104181787210, 30722100974228824503070, 30732122718868755480770, 30733109193849494034500, 30738126249517072627100,
  30740064542860826114930, 30742098676824335564430, 30743138379743471085630, 30746130304168153708740, 30749125386913629783030,
  30751173344819085750430, 30755173344819085750430, 30757138379743471085630, 30759128801346123215360, 30764150318968155809980,
  30765146264317074728340, 30768140763853705535610, 30772078150404967737800, 30775132914306407404940, 30776118964025996518480,
  30778173344819085750430, 30779152550403668952090, 30780173344819085750430, 30782117854058236798240, 30784173344819085750430,
  30789101767464243251360, 30791150318968155809980, 30802173344819085750430, 30805098456289528415850, 30806162358696199069360,
  30810117893044640954820, 30813101861361646749770, 30820162358696199069360, 30824138379743471085630, 30827099350838252436900,
  30828089039365238844790, 30830073864991161523650, 30831130304168153708740, 30844126249517072627100, 30857120563672493445270,
  30860131755988252153720, 30861114794099863726160, 30862100669564807468730, 30865104769678460296540, 30871113380298199560220,
  30872118706501035494330, 30879121639979135368930, 30883139671860785885700, 30887101635934300625390, 30889098456289528415850,
  30893131913471821835110, 30896090791730967894470, 30897105833804396382830, 30898159481875474551540, 30899100931156252527250,
  30900152550403668952090, 30906073864991161523650, 30908094666104181787210, 30910110282066216270280, 30913088778883392877360,
  30917131003754039777840, 30922138687460057753180, 30923111924445029876870, 30928132073475235299520, 30933101498527558577300,
  30937159481875474551540, 30938098676824335564430, 30952095770031419908650, 30959152550403668952090, 30964153885717595197310,
  30967097981179701705320, 30970123577481661544690, 30971159481875474551540, 30977123857220181968760, 30980117893044640954820,
  30990173344819085750430, 31001114794099863726160, 31014078917607799321690, 31018173344819085750430, 31019117854058236798240,
  31020162358696199069360, 31025152550403668952090, 31034083145759135033670, 31036081258429832386180, 31038061172034857108930,
  31040173344819085750430, 31041105309766509667050, 31048104418402674029540, 31062079903101889653400, 31067118210531624100610,
  31069093500191763128470, 31070068916687428030240, 31072112753587129932470, 31074142899594708516200, 31077110806530969995710,
  31080099344723914123510, 31085089072134246867930, 31087173344819085750430, 31095119273101371149240, 31096103080550998754090,
  31103115084818011945930, 31104097938603799178910, 31105083733724226763900, 31108115084818011945930, 31109103232679212246770,
  31117103080550998754090, 31118173344819085750430, 31119080106342958052660, 31130147695325511135070, 31142089600050193604020,
  31146103232679212246770, 31150081258429832386180, 31153119273101371149240, 31161113232147341708820, 31163077393554396990970,
  31165108197692177025150, 31166119731897428656200, 31167113632200687845820, 31168096924375057017860, 31169081944567105138870,
  31171113632200687845820, 31174145618931863352630, 31176139332845269128890, 31177108714524516543740, 31179089458041393942340,
  31181075315884712746190, 31185065147236243647635, 31186115946889963958100, 31189162358696199069360, 31192077589430217192520,
  31199093720662284539800, 31203159481875474551540, 31204127597709300716600, 31206079355066177483140, 31207118834434550093440,
  31209093294485639379340, 31211139671860785885700, 31213106142617534397490, 31215075359660584055380, 31216071784473543554640,
  31224124218270228389920, 31227083471600957249200, 31229132073475235299520, 31232090624222863646310, 31237092288725062751470,
  31240145618931863352630, 31243072981256829644920, 31245096986950471794600, 31246092288725062751470, 31252159481875474551540,
  31255146264317074728340, 31258118622112349035690, 31262173344819085750430, 31264113760572155452630, 31278075315884712746190,
  31281071784473543554640, 31283078849671682121240, 31287140386450425707140, 31291100788906343213790, 31292131600946386794070,
  31293116784900977551900, 31295107278317223768290, 31302089911660271700990, 31309075359660584055380, 31310132914306407404940,
  31319126340015427826270, 31330132073475235299520, 31337078849671682121240, 31348098356121745981130, 31350090439384078023030,
  31351094021197542352920, 31353121696959346515300, 31354069185001251723790, 31359088840697508491570, 31360173344819085750430,
  31361069725889772202580, 31363109358869740398350, 31364120927348935154020, 31368133641899950229220, 31373118538429852330530,
  31377107791250167643790, 31378114511595200867650, 31382131755988252153720, 31383088808676988016780, 31384117397705289732050,
  31388127393620584404540, 31389106448826393960780, 31391113455204916851800, 31392137509629701189340, 31397111669654176867020,
  31398101475808881634130, 31400162358696199069360, 31401106448826393960780, 31402108683371843374240, 31406094021197542352920,
  31407107791250167643790, 31418111669654176867020, 31428127393620584404540, 31429118538429852330530, 31431101475808881634130,
  31434109358869740398350, 31435069433043076750820, 31446104408255539724080, 31449091216423238985600, 31454080332045416067590,
  31455081439361639270410, 31456086957792997616100, 31459108021476163526950, 31461087089725736753480, 31469100931156252527250,
  31471092053069116632500, 31478080332045416067590, 31481088364715365755800, 31482117738002775595160, 31487139004947040898980,
  31491123928394859657400, 31494157250439961409430, 31498142899594708516200, 31499128801346123215360, 31505083553172596103340,
  31508081111265995213660, 31513121986834715247830, 31515111796238145586260, 31520145618931863352630, 31524133832381899936160,
  31526084049142007497060, 31528110672813600336800, 31532056982155481710870, 31534173344819085750430, 31544141989876926458930,
  31545145012685645188280, 31546129906764867213600, 31548098546177774100180, 31558081111265995213660, 31559155427224393469880,
  31561073844925223874960, 31563104623538072360580, 31565128801346123215360, 31567126249517072627100, 31568138081213839588820,
  31569100902543929716940, 31570121470961027342880, 31572080595717659495620, 31574089800429684602320, 31578145012685645188280,
  31579109325647118478580, 31584148495752587870430, 31601125222975532026270, 31602166413347280151000, 31605111775029229894880,
  31607106300675536109370, 31609092465343539323740, 31614082307250220016450, 31616072562010656657530, 31627129906764867213600,
  31629143900429294086030, 31636140022773983998400, 31637157250439961409430, 31639083454118435313900, 31644138081213839588820,
  31645155427224393469880, 31649067324617032026330, 31657130169937950387330, 31658151372573312388250, 31659124592845853738920,
  31660173344819085750430, 31661108006930706417000, 31665104079048753523190, 31668132401373463529430, 31680078590885822074420,
  31684073920140563980320, 31686117104644023877050, 31687106998485507133590, 31689100902543929716940, 31699131600946386794070,
  31705173344819085750430, 31709122285364346744640, 31713111860136126573980, 31716123928394859657400, 31718148495752587870430,
  31721109325647118478580, 31726097553139411789670, 31729118664217674399130, 31731145012685645188280, 31735139671860785885700,
  31742138081213839588820, 31751107251326654076640, 31756121526983582829580, 31757131600946386794070, 31774151372573312388250,
  31777072562010656657530, 31783141564280782270980, 31786125304608638417870, 31787124592845853738920, 31792149365866357766740,
  31799151372573312388250, 31800128801346123215360, 31805082307250220016450, 31806115084818011945930, 31807125222975532026270,
  31811097553139411789670, 31820092465343539323740, 31821116340383351843570, 31840098546177774100180, 31852118664217674399130,
  31854130169937950387330, 31858140763853705535610, 31859084103580168890330, 31867078330403161014250, 31868139332845269128890,
  31869131913471821835110, 31878151372573312388250, 31881089911660271700990, 31890097476783734124620, 31895089572406775862530,
  31896095770031419908650, 31903108257127716033620, 31908115506567262453060, 31909131149742033989370, 31914112614373744746390,
  31918083650672577088700, 31921152550403668952090, 31922145012685645188280, 31923116011406316772980, 31925115506567262453060]

def emitB8 : List Nat := [
  31932141989876926458930, 31933115475845272083360, 31934067010332023562540, 31941134632808976671520, 31946100021127026459800,
  31948140386450425707140, 31949106675251161458370, 31957120017631153096750, 31958096506179283186140, 31961136968957488486570,
  31964112010838655783950, 31966112614373744746390, 31967102663099081870030, 31968134426616104644180, 31975083650672577088700,
  31976141156060837068440, 31983100060445556798820, 31995071370941562739050, 31998090014519688321320, 32000079819477708956860,
  32002130440224674266520, 32004087362618785164340, 32005070690284340436050, 32006173344819085750430, 32008132073475235299520,
  32010107734512426784700, 32011103952279625335360, 32013084392633248094240, 32016094242582014776990, 32019173344819085750430,
  32020085871298309506920, 32021128571450940968380, 32023107428081765663870, 32025091575280403492630, 32026097635233254060340,
  32027086164725777286880, 32032083737574082441860, 32033085099510870485840, 32034088299687703161820, 32039075778715518996750,
  32043077972868290726080, 32047089137996175396500, 32048076060027195386460, 32051116407497697723450, 32057105511567079710830,
  32058145618931863352630, 32066074834989100210650, 32068063512251551722860, 32070122846259013255070, 32080062967575563978775,
  32085076070158002843900, 32091129906764867213600, 32094109358869740398350, 32097113838393559873160, 32098111462177854924530,
  32102086804876756666620, 32104112341629565549800, 32110123508752868667070, 32113066374137781577000, 32114088593614935807140,
  32115137235639959308190, 32121129036651097317300, 32129115384241578096720, 32143112918490748926620, 32147056197345927944810,
  32154152550403668952090, 32156079506925583085040, 32160082528844124915870, 32162112163847105336960, 32166134224589031468980,
  32172143387496350210530, 32173074769859398899090, 32177096364527383022400, 32178071871074435868065, 32180162358696199069360,
  32184146264317074728340, 32186118455441824183580, 32187120614823500112960, 32189112683738184712960, 32190127806050169745030,
  32191100292936931820070, 32196166413347280151000, 32202075778715518996750, 32203123172020717601200, 32210131297892891840780,
  32216120874578364145580, 32217137509629701189340, 32218088162892168257230, 32221114155880543018980, 32222121986834715247830,
  32224098467481471386000, 32227097970518719885340, 32232068461007609192240, 32233084614341096039760, 32236102336299996309940,
  32239110245636303485280, 32241132914306407404940, 32244093135541895934680, 32264125386913629783030, 32265121583321760012150,
  32266146264317074728340, 32272151372573312388250, 32283129156413007784470, 32285124516799859886720, 32286137235639959308190,
  32291075596234986360960, 32299103991114625599330, 32302090608901103754120, 32305085321097749251450, 32306157250439961409430,
  32311128236224020581930, 32313121811903140772650, 32317060566460659374260, 32318116011406316772980, 32321079744292633705340,
  32323117286798422790460, 32325123440493217963070, 32326113062033883443450, 32340098450698250663250, 32341137235639959308190,
  32346119969438288737250, 32350099031822334191410, 32353110065451248458480, 32361100252695428822810, 32362094563265720717200,
  32365129650340561080220, 32371103731858626648780, 32380074137440026323880, 32381128018824154217890, 32382144441101506788800,
  32386130037485682887120, 32392148495752587870430, 32396105133744363185780, 32399103961974245580840, 32403143387496350210530,
  32406090560536493759720, 32412121195461509660590, 32416090014519688321320, 32417173344819085750430, 32418070690284340436050,
  32419130440224674266520, 32420090560536493759720, 32422087362618785164340, 32423097635233254060340, 32424132073475235299520,
  32426079819477708956860, 32428110245636303485280, 32431085871298309506920, 32432128571450940968380, 32433107428081765663870,
  32434096364527383022400, 32435084392633248094240, 32437085321097749251450, 32438146264317074728340, 32439086164725777286880,
  32440091575280403492630, 32441103952279625335360, 32442085099510870485840, 32445094242582014776990, 32446173344819085750430,
  32447088162892168257230, 32448145618931863352630, 32451093135541895934680, 32452063512251551722860, 32453116407497697723450,
  32454076060027195386460, 32455098450698250663250, 32456074834989100210650, 32457151372573312388250, 32458122846259013255070,
  32461105511567079710830, 32463056197345927944810, 32465115384241578096720, 32466112341629565549800, 32467062967575563978775,
  32469099031822334191410, 32472094563265720717200, 32473086804876756666620, 32474111462177854924530, 32475137235639959308190,
  32476113838393559873160, 32477076070158002843900, 32478109358869740398350, 32479066374137781577000, 32482129036651097317300,
  32483110065451248458480, 32485112918490748926620, 32486129906764867213600, 32487074137440026323880, 32489116011406316772980,
  32490131297892891840780, 32491127806050169745030, 32493105133744363185780, 32494118455441824183580, 32495123172020717601200,
  32496112683738184712960, 32498166413347280151000, 32499100252695428822810, 32500074769859398899090, 32501100292936931820070,
  32502143387496350210530, 32503117286798422790460, 32504112163847105336960, 32508079506925583085040, 32509120614823500112960,
  32511082528844124915870, 32512162358696199069360, 32514137509629701189340, 32516120874578364145580, 32517102336299996309940,
  32518121195461509660590, 32521114155880543018980, 32526121986834715247830, 32529132914306407404940, 32531084614341096039760,
  32532098467481471386000, 32533128236224020581930, 32534068461007609192240, 32536097970518719885340, 32537121583321760012150,
  32538129156413007784470, 32540124516799859886720, 32541103991114625599330, 32543137235639959308190, 32544103961974245580840,
  32546146264317074728340, 32548128018824154217890, 32549121811903140772650, 32551157250439961409430, 32552143387496350210530,
  32553090608901103754120, 32554113062033883443450, 32555123440493217963070, 32556148495752587870430, 32557119969438288737250,
  32558137235639959308190, 32560115914787207655610, 32561144441101506788800, 32564103731858626648780, 32566166413347280151000,
  32568134026562758507190, 32570080448683557043520, 32573130578157895589890, 32578119873743778575750, 32580153885717595197310,
  32581152550403668952090, 32588119873743778575750, 32592101932367862245530, 32593071871074435868065, 32596144441101506788800,
  32597100008055129173600, 32599073133446626055445, 32602102791690652352920, 32607151372573312388250, 32609159481875474551540,
  32610087066421970717420, 32617126900910094336700, 32618089940258956588600, 32622094301470664899500, 32624102791690652352920,
  32626114236852645345160, 32629107144087020446880, 32631087066421970717420, 32633129777730818854520, 32641106816188792216970,
  32645152550403668952090, 32648106816188792216970, 32650090123308383621410, 32652112477071816627370, 32654061669241276644000,
  32660122846259013255070, 32666116407497697723450, 32669166413347280151000, 32670101987945615469000, 32671110691806958373340,
  32673107948959529573740, 32676071516595250749635, 32677110691806958373340, 32679122530775435905820, 32680107948959529573740,
  32681080479215106874520, 32687149365866357766740, 32688126070940898627040, 32690166413347280151000, 32694143387496350210530,
  32696139671860785885700, 32697150318968155809980, 32701095938175066578030, 32703142434394552167290, 32705101460691720780910,
  32709109079934511173530, 32716105398953276985450, 32718130304168153708740, 32722082742669951764980, 32724125723079737772880,
  32725151372573312388250, 32728119007599050208040, 32735104059440904103780, 32736100767742314150010, 32737115692908057902000,
  32742137235639959308190, 32745120614823500112960, 32752102826262856191500, 32753127095090952907730, 32761119007599050208040,
  32763083014755518817760, 32764114155880543018980, 32768104602834131217490, 32769061152700022883560, 32771066906296758698600,
  32772143900429294086030, 32773146264317074728340, 32774120066057397854640, 32780066844959999819755, 32781115724305257948680,
  32784093401869221590670, 32786134632808976671520, 32789091469045129835320, 32791097692066266761120, 32792173344819085750430,
  32793140022773983998400, 32806121696959346515300, 32810166413347280151000, 32819085903125198244200, 32821159481875474551540,
  32822093201461712756200, 32823125386913629783030, 32824111319463913871210, 32827109958878303718620, 32829101643623651254150,
  32831101281046171027900, 32834099769257076646910, 32838122346154807508450, 32842101869226373855900, 32843120512781798370550,
  32844065088010785121470, 32850130440224674266520, 32852066524495999667420, 32854083246677980476620, 32856100093329506194680,
  32858084885606752710250, 32862087472031095921200, 32874093374915027373950, 32879066524495999667420, 32880093374915027373950,
  32881159481875474551540, 32882072487978070581125, 32883111319463913871210, 32886099769257076646910, 32887065088010785121470,
  32893072186286778965850, 32894120512781798370550, 32899098671108416574840, 32900115661609127812710, 32901098671108416574840,
  32902103359722663244430, 32903115414683001909000, 32905090970026199614100, 32907117213538021869730, 32908093301163435954700,
  32918088452767536989750, 32920122164880961582880, 32922094431511509131560, 32923114909374915436850, 32925096734255262132150,
  32928096953207369158710, 32929071963966546795906, 32930109697311517231330, 32932113709025649565980, 32933091651455126466570,
  32937090289978908473540, 32942116611586414035510, 32943084545919409015800, 32945147695325511135070, 32946100718533076008030,
  32948141156060837068440, 32954099548497559654900, 32957146264317074728340, 32958097843465660866150, 32959094835992437651930,
  32960138081213839588820, 32961116543092995579760, 32963099492509855084700, 32966089760500095437480, 32972078515984829898840,
  32974101767464243251360, 32982087531877917522820, 32986102637578013147670, 32987162358696199069360, 32988077955574728266550,
  32990129906764867213600, 32993069368470453257380, 32996173344819085750430, 32997114851571286281850, 33002159481875474551540,
  33003135278194188047230, 33004166413347280151000, 33005114318485751736780, 33007148495752587870430, 33008109870926989190330,
  33009150318968155809980, 33011100697517306451760, 33012143387496350210530, 33014097431248618764940, 33016084582166486203520,
  33018133454978620107700, 33020137235639959308190, 33021066622991692436340, 33026097093747603361450, 33029116543092995579760,
  33030108967302588386430, 33032099461540489979360, 33033099461540489979360, 33034098659686370787070, 33037128346722382447780,
  33039106106494677538340, 33040132073475235299520, 33041084956400951437520, 33043112823927396506270, 33046097416116207302250,
  33050083160286982625170, 33051135278194188047230, 33067084936122844836500, 33071153885717595197310, 33073084936122844836500,
  33074148495752587870430, 33080077138215657645150, 33081138081213839588820, 33086097471714025524290, 33096135968122902916750,
  33098103250729758664070, 33099116996923054057940, 33100118706501035494330, 33102097843465660866150, 33104089153426576341950,
  33107113355453466283610, 33108120411770838505500, 33109116819927283063940, 33120142899594708516200, 33125115882787180348910,
  33126084956400951437520, 33127121754266093605140, 33131094835992437651930, 33133152550403668952090, 33134122975293061614150,
  33136094375572523061800, 33137140763853705535610, 33139083160286982625170, 33144096953207369158710, 33145089184358991637640,
  33146108138607810163470, 33147128918306520847280, 33148121033732917204570, 33150101798665516613800, 33151113405204812684750,
  33152109906014744487130, 33154124746695042133720, 33160173344819085750430, 33167115568295853523870, 33176148495752587870430,
  33178113709025649565980, 33179139671860785885700, 33180124982000016235660, 33181107387013946137330, 33184097431248618764940,
  33192099031822334191410, 33193128918306520847280, 33203117738002775595160, 33210173344819085750430, 33211143387496350210530,
  33213089760500095437480, 33214128346722382447780, 33215112823927396506270, 33216112918490748926620, 33218113037966483137800,
  33219126805215584175200, 33222126070940898627040, 33225077138215657645150, 33226133271487233425730, 33228162358696199069360,
  33229132073475235299520, 33240103250729758664070, 33242159481875474551540, 33247106106494677538340, 33251099724713573153100,
  33253097822446210142430, 33255112032554190919030, 33256078450714409956440, 33258050344864087680990, 33261101536507095304880,
  33267074862956718240055, 33268083155442021290080, 33275173344819085750430, 33276126997529203454090, 33280173344819085750430,
  33285105488942635671140, 33286097181983469946600, 33287083555693075007690, 33288075408650271746280, 33289070566759769275880]

def emitB9 : List Nat := [
  33290087498170020437930, 33292101861361646749770, 33293093804608212970070, 33296155427224393469880, 33298089526503550894830,
  33300155427224393469880, 33307159481875474551540, 33308122407317077682820, 33310085351218253951360, 33311108777122530028800,
  33314123508752868667070, 33322072195186095923880, 33324093354746953310900, 33328088654290924867400, 33329108138607810163470,
  33331151372573312388250, 33332166413347280151000, 33333108999353897875900, 33334147695325511135070, 33335129906764867213600,
  33337081573881303924960, 33342152550403668952090, 33348126070940898627040, 33351131448271665486180, 33368166413347280151000,
  33369108138607810163470, 33382088654290924867400, 33384145618931863352630, 33390166413347280151000, 33391080330219432313770,
  33392088738590686472010, 33393088738590686472010, 33394085102452912284060, 33395106276195719722960, 33399106276195719722960,
  33402075787405881931800, 33406090804733180101990, 33410078590885822074420, 33418173344819085750430, 33419132073475235299520,
  33421121087352348618430, 33424166413347280151000, 33426116646009855945230, 33431146954245789597860, 33433101705352242324970,
  33436114291200605204730, 33437104030101029755900, 33439151372573312388250, 33441142434394552167290, 33444166413347280151000,
  33445120262142111738390, 33446095100359776974250, 33448152550403668952090, 33451136968957488486570, 33452102860954998531610,
  33453106985353528883970, 33454119139469093027590, 33455103045089968686570, 33457073716411303394030, 33459104886020333109950,
  33460173344819085750430, 33463127806050169745030, 33464123577481661544690, 33465123040439871826080, 33467142899594708516200,
  33469122285364346744640, 33473155427224393469880, 33476166413347280151000, 33479109476025892124000, 33483135278194188047230,
  33484173344819085750430, 33485093034217283344260, 33486125061681712727420, 33487071072455775507410, 33489118250935719470660,
  33491173344819085750430, 33492116441224542509830, 33493155427224393469880, 33495091614705968500730, 33496152550403668952090,
  33499111627813111641280, 33500129906764867213600, 33502126249517072627100, 33503109714538050345780, 33507173344819085750430,
  33508173344819085750430, 33509080645527451872030, 33510084624153951667030, 33511125061681712727420, 33515148495752587870430,
  33519108123891104048920, 33521067575143119544460, 33529099699348943194010, 33531153885717595197310, 33537128801346123215360,
  33538107104166807751500, 33539073920140563980320, 33540112990004760502870, 33541094114959498638480, 33542145618931863352630,
  33545120462148778805090, 33548159481875474551540, 33550131448271665486180, 33559173344819085750430, 33562157250439961409430,
  33564139671860785885700, 33575129650340561080220, 33576134426616104644180, 33579101068194098463900, 33580143387496350210530,
  33581136968957488486570, 33583112847484533430860, 33585138379743471085630, 33586128918306520847280, 33588135732817928814810,
  33589136709202624453980, 33590085167397790002020, 33592132073475235299520, 33593117434949280641870, 33596151372573312388250,
  33600113786445391102140, 33603173344819085750430, 33606071990496487716370, 33609079843795942237030, 33610071990496487716370,
  33615140386450425707140, 33616132914306407404940, 33618088545753019448230, 33620116141701319676330, 33626135502922746567830,
  33630121639979135368930, 33631123716372783151360, 33632139004947040898980, 33633108138607810163470, 33635085375380150333060,
  33636128685737899204600, 33637125304608638417870, 33639108301937350383980, 33640137509629701189340, 33643127911871263050400,
  33647077266413981449930, 33655087935721905414910, 33656140022773983998400, 33659135058405120859500, 33660134026562758507190,
  33669121986834715247830, 33670128685737899204600, 33673134026562758507190, 33674083065030941928380, 33678111421194191001720,
  33682133091302178398950, 33683152550403668952090, 33686131448271665486180, 33688130037485682887120, 33692142434394552167290,
  33694133091302178398950, 33698135502922746567830, 33703135278194188047230, 33704139332845269128890, 33706162358696199069360,
  33707081442422083058630, 33713098175046839707230, 33714090906734849097630, 33715159481875474551540, 33716134426616104644180,
  33719073418394447280230, 33721135732817928814810, 33722143900429294086030, 33724117286798422790460, 33725116611586414035510,
  33729147695325511135070, 33733132236080444017330, 33735155427224393469880, 33738105798778090870820, 33740113430173614670620,
  33743114680138516417460, 33750139671860785885700, 33756090411825498637200, 33757162358696199069360, 33759138081213839588820,
  33760112730249896470270, 33761151372573312388250, 33769098126226563734140, 33775070943078566593220, 33777096215909470849150,
  33778099332506441620300, 33789159481875474551540, 33795121986834715247830, 33796173344819085750430, 33799173344819085750430,
  33802098175046839707230, 33803173344819085750430, 33804105614015329195080, 33805126340015427826270, 33806109243070266088780,
  33816131600946386794070, 33820143900429294086030, 33821113281287489733110, 33828109941226048472910, 33829077601236184048705,
  33830125386913629783030, 33831089852341080082530, 33832090041003392256260, 33833141564280782270980, 33836063096425804013165,
  33841142899594708516200, 33845134426616104644180, 33852126805215584175200, 33853077662573241201440, 33865077627676500036635,
  33879082987330473309060, 33883092489951364721980, 33889091962092700448590, 33891079321172043435215, 33894109476025892124000,
  33899104257271292598230, 33900110245636303485280, 33901173344819085750430, 33905117323630876953440, 33907153885717595197310,
  33909111648711760835880, 33910159481875474551540, 33911128685737899204600, 33922119731897428656200, 33931080324743480730380,
  33940159481875474551540, 33945078853608845052525, 33948126616530741131380, 33950121986834715247830, 33967094635523118199010,
  33970097917383632064930, 33972121928183520723850, 33976093857434537614330, 33978132914306407404940, 33980093034217283344260,
  33981116240548912001740, 33983122045831936519700, 33988101385446820994750, 33991140763853705535610, 33993132914306407404940,
  33994151372573312388250, 33995095680650105553880, 33997147695325511135070, 34001131755988252153720, 34003141989876926458930,
  34006129524552739011620, 34013086567016525108580, 34015110429127690167230, 34022104950054703462020, 34028102091988170643330,
  34030090906734849097630, 34031155427224393469880, 34036117286798422790460, 34044166413347280151000, 34058166413347280151000,
  34065119273101371149240, 34067109292534505442020, 34071114851571286281850, 34074115233409155983430, 34081083450376153725920,
  34083080324743480730380, 34085117323630876953440, 34091137235639959308190, 34092096649866575673500, 34093127911871263050400,
  34103120212759295332570, 34106121869874317615900, 34109134632808976671520, 34113137509629701189340, 34115140022773983998400,
  34121137791338470856300, 34126121639979135368930, 34137157250439961409430, 34148152550403668952090, 34152123172020717601200,
  34154114291200605204730, 34157089852341080082530, 34162110155137948286090, 34164098699720739385160, 34169157250439961409430,
  34170166413347280151000, 34171173344819085750430, 34174159481875474551540, 34180093452604997597670, 34183173344819085750430,
  34184123716372783151360, 34186110429127690167230, 34188146954245789597860, 34191139671860785885700, 34196120212759295332570,
  34203089096233283616030, 34204150318968155809980, 34212153885717595197310, 34214132914306407404940, 34217090041003392256260,
  34218097461582312398210, 34220152550403668952090, 34222152550403668952090, 34223119545845550345840, 34224157250439961409430,
  34234139004947040898980, 34241150318968155809980, 34249151372573312388250, 34253086567016525108580, 34255087974860898626270,
  34256119731897428656200, 34259159481875474551540, 34261131149742033989370, 34269075787405881931800, 34272162358696199069360,
  34276101199774944239000, 34277077266413981449930, 34281112706966998874360, 34282152550403668952090, 34298121869874317615900,
  34299105798778090870820, 34303141989876926458930, 34308110155137948286090, 34309159481875474551540, 34310095100359776974250,
  34311071072455775507410, 34314098699720739385160, 34315099699348943194010, 34321108392163526380370, 34326173344819085750430,
  34327173344819085750430, 34328166413347280151000, 34330159481875474551540, 34349089326995686701340, 34364151372573312388250,
  34367113281287489733110, 34382095084378950560780, 34383152550403668952090, 34384116475065522352250, 34388110981123183713390,
  34389070759106774916765, 34394087498170020437930, 34395087498170020437930, 34396152550403668952090, 34398106880913937273140,
  34399085120123363060750, 34402143387496350210530, 34407096967654759102460, 34411110119166686477600, 34412120017631153096750,
  34415120017631153096750, 34417123646686089990430, 34425115353892541145180, 34428146954245789597860, 34429071899323042223610,
  34430112730249896470270, 34432137235639959308190, 34433127911871263050400, 34434109526658911689460, 34442111586146384692830,
  34444117286798422790460, 34445150318968155809980, 34453104780199239804580, 34460129524552739011620, 34461157250439961409430,
  34473132236080444017330, 34476159481875474551540, 34479113256687231324480, 34480131297892891840780, 34481147695325511135070,
  34486159481875474551540, 34496131913471821835110, 34502134026562758507190, 34503107805485045492320, 34506126431340263459000,
  34507089257651934948900, 34511153885717595197310, 34512131600946386794070, 34516126616530741131380, 34521124669474581194620,
  34523118010924198475240, 34526145012685645188280, 34527127495144299044720, 34532117068607948844060, 34541133641899950229220,
  34542107734512426784700, 34544132073475235299520, 34545149365866357766740, 34546139671860785885700, 34548148495752587870430,
  34553173344819085750430, 34554149365866357766740, 34555119318045267027650, 34558127597709300716600, 34560111838791401287650,
  34562101877097291224070, 34563147695325511135070, 34566159481875474551540, 34567166413347280151000, 34568109375522533588970,
  34569139332845269128890, 34578166413347280151000, 34581119318045267027650, 34583121639979135368930, 34584114182798459676090,
  34586127193613917337840, 34588102410772827062770, 34593101651318919044440, 34595141989876926458930, 34597123786548509737830,
  34615121304752214982480, 34619124072282234178390, 34622155427224393469880, 34623105987018943327160, 34631132401373463529430,
  34632142899594708516200, 34633120980399457450950, 34636115630407854450270, 34638118877445369087340, 34645137235639959308190,
  34647121141260834967200, 34649115661609127812710, 34656131448271665486180, 34660159481875474551540, 34662112730249896470270,
  34664123646686089990430, 34670131003754039777840, 34672155427224393469880, 34674159481875474551540, 34676109177496260627170,
  34678123172020717601200, 34680121639979135368930, 34684130037485682887120, 34686135278194188047230, 34691121141260834967200,
  34701089262111243829930, 34707162358696199069360, 34718109526658911689460, 34719139671860785885700, 34722109941226048472910,
  34728147695325511135070, 34731149365866357766740, 34735143387496350210530, 34739126900910094336700, 34746101141080718510940,
  34747130037485682887120, 34749152550403668952090, 34756132073475235299520, 34760142899594708516200, 34762149365866357766740,
  34763119183815063706240, 34766147695325511135070, 34769127393620584404540, 34770126616530741131380, 34784110484838140661790,
  34794166413347280151000, 34796120980399457450950, 34799139671860785885700, 34802110119166686477600, 34806153885717595197310,
  34809128685737899204600, 34811127911871263050400, 34814119139469093027590, 34821132401373463529430, 34829118877445369087340,
  34832148495752587870430, 34833135278194188047230, 34835150318968155809980, 34836157250439961409430, 34837111059709049838610,
  34847101651318919044440, 34849139332845269128890, 34850114651849954412700, 34865126431340263459000, 34866140022773983998400,
  34870104780199239804580, 34873149365866357766740, 34875107734512426784700, 34876173344819085750430, 34880078274501699894925,
  34892059061453027163235, 34893104418402674029540, 34899105556970108898670, 34900109408911546244120, 34903081954227386038240,
  34905090248050125873170, 34907077588736182421090, 34909077331811146935780, 34913097681708938025800, 34914124824516446554270,
  34915079896106436412550, 34917081141912057456920, 34920062692038460216150, 34923143387496350210530, 34924105556970108898670,
  34926152550403668952090, 34928091799817334231020, 34935114708507329769470, 34941173344819085750430, 34945076349482129599840,
  34949121359848773092180, 34952115819092697494100, 34955112230145690723650, 34957116749996928154220, 34962122346154807508450]

def emitB10 : List Nat := [
  34966102246024455027730, 34972115055362909648370, 34974152550403668952090, 34987080040500563410410, 34989098367202079524740,
  34999159481875474551540, 35009091240856534702690, 35010097512343842716810, 35013072985635688584260, 35014157250439961409430,
  35018121359848773092180, 35028173344819085750430, 35029123172020717601200, 35032104633906139644970, 35033112032554190919030,
  35036081141912057456920, 35037072985635688584260, 35041078610083370684930, 35043142899594708516200, 35044102011859536789750,
  35048133091302178398950, 35057135502922746567830, 35060102834924615069990, 35064106251775683167460, 35065123440493217963070,
  35074124592845853738920, 35082146264317074728340, 35088107387013946137330, 35090118130209907127970, 35098106094482664082000,
  35105133641899950229220, 35109128918306520847280, 35114122782361032267350, 35115136209098418707360, 35122102011859536789750,
  35124133832381899936160, 35126110484838140661790, 35131122224941202185010, 35137128018824154217890, 35140076385106514674270,
  35165142899594708516200, 35167129036651097317300, 35168157250439961409430, 35172133832381899936160, 35178115055362909648370,
  35183105556970108898670, 35186098367202079524740, 35199060853787705289320, 35201067333572702061190, 35203110209338622979480,
  35206092904974773534900, 35211074757302498803070, 35215063460078109526190, 35219116784900977551900, 35222081775423133259760,
  35242072289518746327600, 35244122224941202185010, 35250126616530741131380, 35258075443310413779190, 35261153885717595197310,
  35264072155604477947590, 35265074757302498803070, 35266072155604477947590, 35268063460078109526190, 35269116784900977551900,
  35270081775423133259760, 35272153885717595197310, 35273075443310413779190, 35274122224941202185010, 35280126616530741131380,
  35282083377061131327470, 35299065710200396436640, 35301142434394552167290, 35302093906992161164190, 35313151372573312388250,
  35315157250439961409430, 35320093906992161164190, 35328085098040174108450, 35330096469431423734150, 35331134426616104644180,
  35336067620630267380895, 35338111565377945244430, 35342082157087301243510, 35344151372573312388250, 35347081153800309302880,
  35349134426616104644180, 35352066765874612587695, 35354173344819085750430, 35355127701337171072070, 35357131003754039777840,
  35359124824516446554270, 35363118130209907127970, 35365127293117225869530, 35370089476252188868100, 35373065361724387804130,
  35377067958736130013180, 35380095084378950560780, 35382166413347280151000, 35386095437858774003050, 35390134426616104644180,
  35398129906764867213600, 35408110825780254091550, 35412093089655220860350, 35413077647203669921040, 35419117623278763972800,
  35422078124011990540090, 35424123646686089990430, 35426095951227058859450, 35430077787095586061765, 35433081883601089255120,
  35435104187584599437300, 35436131149742033989370, 35437102035830782786970, 35438120311770005159670, 35440136709202624453980,
  35441088025971684158170, 35442081825124499251910, 35443090366892821941820, 35449097074244915561110, 35452121811903140772650,
  35455173344819085750430, 35461115293469396585560, 35462141564280782270980, 35463094953502603007110, 35465099769257076646910,
  35466121869874317615900, 35469064662182683494370, 35473137509629701189340, 35475105265469648751180, 35477095625716521392800,
  35480095064438764492150, 35486077180766084187290, 35488094465225719750980, 35489148495752587870430, 35491108212517976627360,
  35492091372185371607080, 35493131149742033989370, 35494116890350109318070, 35496143387496350210530, 35498063198772462323310,
  35504098984540922231950, 35506084252466293827820, 35513123372696348109280, 35519069097036824251610, 35522121639979135368930,
  35524127701337171072070, 35527080390653642437420, 35531082930336730811550, 35533140763853705535610, 35538116611586414035510,
  35542078650132715651410, 35548134224589031468980, 35553129777730818854520, 35554137509629701189340, 35558135732817928814810,
  35559112319233139614760, 35563126249517072627100, 35565114909374915436850, 35566173344819085750430, 35569124982000016235660,
  35571130037485682887120, 35574113430173614670620, 35575105579749162028600, 35576080618242305340000, 35578119007599050208040,
  35582095925140087543590, 35584093889264803215550, 35585141989876926458930, 35586124824516446554270, 35588121869874317615900,
  35594113207667525322420, 35598117472332501747940, 35607173344819085750430, 35609103332362865055670, 35611081621549787970760,
  35613078524364186702210, 35616107920099480682400, 35627138379743471085630, 35628113183247488766910, 35635126159830372799500,
  35641101333110252933650, 35646127393620584404540, 35657076016047569048590, 35663109079934511173530, 35672097147576947923730,
  35673138687460057753180, 35674089257651934948900, 35676114822794288005690, 35686082323951220391150, 35691132914306407404940,
  35692104738182371267570, 35695099067430680421500, 35696076973716619968675, 35700102262377688435040, 35703087132891271403210,
  35709099769257076646910, 35712084283595776907420, 35722065950247039135410, 35730132073475235299520, 35731099629926133607660,
  35733159481875474551540, 35734125808917174686800, 35745067620630267380895, 35746096469431423734150, 35747134426616104644180,
  35748064662182683494370, 35749109079934511173530, 35750151372573312388250, 35752082157087301243510, 35753099629926133607660,
  35754134426616104644180, 35757081153800309302880, 35758076973716619968675, 35759111565377945244430, 35760066765874612587695,
  35762081621549787970760, 35763124982000016235660, 35764126159830372799500, 35766131003754039777840, 35767127293117225869530,
  35768067958736130013180, 35769127701337171072070, 35770078650132715651410, 35772124824516446554270, 35773105579749162028600,
  35774065361724387804130, 35775089476252188868100, 35776118130209907127970, 35777076016047569048590, 35779166413347280151000,
  35780077647203669921040, 35781117623278763972800, 35782097147576947923730, 35784110825780254091550, 35785095084378950560780,
  35786095437858774003050, 35787129906764867213600, 35789078124011990540090, 35791093089655220860350, 35793099067430680421500,
  35795141564280782270980, 35797077787095586061765, 35798173344819085750430, 35799081883601089255120, 35800136709202624453980,
  35801121811903140772650, 35802094465225719750980, 35803115293469396585560, 35805088025971684158170, 35806095625716521392800,
  35807131149742033989370, 35808120311770005159670, 35809102035830782786970, 35810095951227058859450, 35812140763853705535610,
  35813081825124499251910, 35814090366892821941820, 35815104187584599437300, 35816137509629701189340, 35819148495752587870430,
  35820108212517976627360, 35821077180766084187290, 35823091372185371607080, 35824131149742033989370, 35825095064438764492150,
  35826143387496350210530, 35827137509629701189340, 35828063198772462323310, 35829116890350109318070, 35831082930336730811550,
  35832080618242305340000, 35834095925140087543590, 35835084283595776907420, 35837123372696348109280, 35838084252466293827820,
  35841098984540922231950, 35843069097036824251610, 35844121639979135368930, 35845116611586414035510, 35846127701337171072070,
  35848080390653642437420, 35851093889264803215550, 35852113430173614670620, 35853134224589031468980, 35854113207667525322420,
  35855126249517072627100, 35856112319233139614760, 35858141989876926458930, 35859124824516446554270, 35861114909374915436850,
  35863132073475235299520, 35864173344819085750430, 35865130037485682887120, 35866119007599050208040, 35867135732817928814810,
  35868117472332501747940, 35874078524364186702210, 35875107920099480682400, 35876173344819085750430, 35877129777730818854520,
  35878103332362865055670, 35880101333110252933650, 35881127393620584404540, 35882138379743471085630, 35884113183247488766910,
  35885089257651934948900, 35887138687460057753180, 35888159481875474551540, 35889114822794288005690, 35892102262377688435040,
  35893132914306407404940, 35894125808917174686800, 35895087183487693039030, 35905104801274063200220, 35910094409098350701400,
  35911137509629701189340, 35912096767266374401800, 35913166413347280151000, 35916106411582403050960, 35918104408255539724080,
  35920076041579750481040, 35930145618931863352630, 35937085401116293521730, 35938134632808976671520, 35944173344819085750430,
  35946090411825498637200, 35947104167762987397400, 35948099393743620125580, 35961113281287489733110, 35962127193613917337840,
  35970123440493217963070, 35977152550403668952090, 35980123577481661544690, 35987111360031920827360, 35988150318968155809980,
  35997087477626545101970, 35998108983315402056160, 36000072064917286870750, 36001071702467823273395, 36002082235199805791400,
  36007084181099936933500, 36008078994791393153820, 36009101483376040527190, 36010093724145998213770, 36011090332084233836960,
  36012081501775511497030, 36015103961974245580840, 36019138687460057753180, 36020080436681524489830, 36022104000846986464860,
  36023087984669629182200, 36024090050651246357240, 36027083095077235790400, 36028094945625485624610, 36029119592035008908800,
  36031084628362410731730, 36032090467018814866120, 36033133454978620107700, 36036106536272297848300, 36039061522295278616910,
  36040081418982581881210, 36042112364076264088040, 36049117434949280641870, 36050132073475235299520, 36051098484292907119040,
  36060112522629981985980, 36062097532720823786970, 36064096087104669870930, 36065173344819085750430, 36066099449179548974100,
  36067088556138314804740, 36068110578384192334000, 36070091427418872975860, 36074079135565145320470, 36076101892857735778720,
  36077099169015061605000, 36084096924375057017860, 36090106946060747485080, 36091166413347280151000, 36092084597541428081920,
  36093087867595121239840, 36101125637972841093790, 36104106362138544596320, 36106086735347535141100, 36109126900910094336700,
  36111099718366381572200, 36115124000079754443520, 36118113256687231324480, 36119131149742033989370, 36123109680114608436060,
  36125087477626545101970, 36126108983315402056160, 36127072064917286870750, 36128134843343068649850, 36129082235199805791400,
  36130071702467823273395, 36131081501775511497030, 36132099449179548974100, 36133095894791050592050, 36134101892857735778720,
  36135078994791393153820, 36136079135565145320470, 36137101483376040527190, 36138093724145998213770, 36139084181099936933500,
  36140104000846986464860, 36141084597541428081920, 36142103961974245580840, 36143090332084233836960, 36144138687460057753180,
  36145110578384192334000, 36146133454978620107700, 36148094945625485624610, 36149080436681524489830, 36151090050651246357240,
  36152084628362410731730, 36153083095077235790400, 36154090467018814866120, 36155119592035008908800, 36156112364076264088040,
  36158081418982581881210, 36159106536272297848300, 36163124000079754443520, 36164061522295278616910, 36168117434949280641870,
  36170132073475235299520, 36171091427418872975860, 36172099169015061605000, 36174113256687231324480, 36175097532720823786970,
  36176112522629981985980, 36179173344819085750430, 36180096087104669870930, 36182096924375057017860, 36184125637972841093790,
  36185166413347280151000, 36186106946060747485080, 36187087867595121239840, 36189131149742033989370, 36190086735347535141100,
  36192106362138544596320, 36193126900910094336700, 36194099718366381572200, 36195109680114608436060, 36196088510523473116150,
  36198119363192070572910, 36199162358696199069360, 36203093324570903589340, 36205130578157895589890, 36208072514265874415820,
  36211173344819085750430, 36212111838791401287650, 36213072492979946388790, 36214078051061564890840, 36215062727932759591490,
  36225099536028730109280, 36229073298376640791780, 36234077081322146150250, 36235087641271690445740, 36241166413347280151000,
  36244129277626613107900, 36245078051061564890840, 36249137509629701189340, 36255150318968155809980, 36259111503330176375600,
  36264087641271690445740, 36275082964731593634670, 36276109906014744487130, 36277138081213839588820, 36280143387496350210530,
  36282157250439961409430, 36286128346722382447780, 36287140763853705535610, 36291094312550998443100, 36292159481875474551540,
  36294133091302178398950, 36299114182798459676090, 36300099363078156045790, 36303166413347280151000, 36305102860954998531610,
  36310155427224393469880, 36311138379743471085630, 36315124669474581194620, 36317089039365238844790, 36319087364463293147060,
  36321106637155877291700, 36328092434668668645120, 36330095092366171432700, 36331173344819085750430, 36332159481875474551540,
  36335076390645828556480, 36339088307793073413060, 36341116475065522352250, 36343138379743471085630, 36346118580183566435340,
  36347111462177854924530, 36361112163847105336960, 36362118050528210636200, 36364108951315374749460, 36367096016743781530230]

def emitB11 : List Nat := [
  36368116475065522352250, 36372166413347280151000, 36381143900429294086030, 36383131913471821835110, 36386117104644023877050,
  36393126249517072627100, 36394106190985222403620, 36398166413347280151000, 36399143387496350210530, 36401125723079737772880,
  36404118050528210636200, 36405155427224393469880, 36410157250439961409430, 36413143387496350210530, 36416153885717595197310,
  36417151372573312388250, 36418112847484533430860, 36420110942060634042740, 36423143387496350210530, 36424140386450425707140,
  36425140763853705535610, 36426116784900977551900, 36427173344819085750430, 36428159481875474551540, 36433123716372783151360,
  36434125061681712727420, 36441135278194188047230, 36448155427224393469880, 36451125061681712727420, 36454126159830372799500,
  36457134632808976671520, 36460139671860785885700, 36461145618931863352630, 36466111020338920245200, 36468151372573312388250,
  36474138379743471085630, 36476145012685645188280, 36479152550403668952090, 36481126900910094336700, 36489143387496350210530,
  36490108951315374749460, 36491111462177854924530, 36493094312550998443100, 36497143387496350210530, 36513123716372783151360,
  36517152550403668952090, 36523064591932342371930, 36524102213397998679550, 36527103684577214689300, 36530098791834228917530,
  36538122407317077682820, 36544103684577214689300, 36554076614143163239020, 36555119499868457859540, 36556093374915027373950,
  36557062001556925784190, 36562103142912002631190, 36575082705555550543970, 36594140763853705535610, 36600105232375299737500,
  36603173344819085750430, 36604121359848773092180, 36611080126896113047190, 36617093432279787348450, 36628092318954831842550,
  36629074934550373815210, 36635151372573312388250, 36636121141260834967200, 36637098317436978201920, 36639112097985176808400,
  36645162358696199069360, 36649102595187106090010, 36650088868531805447160, 36655123440493217963070, 36664083736290632526740,
  36667092701599476642420, 36670112706966998874360, 36671097181983469946600, 36674143387496350210530, 36676098501132652889130,
  36677121811903140772650, 36678135968122902916750, 36681067634214265984000, 36686101956149086295210, 36703091268074842197620,
  36705134843343068649850, 36710076614143163239020, 36711119499868457859540, 36712093374915027373950, 36713103142912002631190,
  36716067634214265984000, 36718088868531805447160, 36719082705555550543970, 36720091268074842197620, 36721140763853705535610,
  36722173344819085750430, 36724105232375299737500, 36726121359848773092180, 36731074934550373815210, 36733093432279787348450,
  36735101956149086295210, 36739080126896113047190, 36741092318954831842550, 36742151372573312388250, 36744102595187106090010,
  36745098317436978201920, 36746162358696199069360, 36749112097985176808400, 36750121141260834967200, 36752092701599476642420,
  36753123440493217963070, 36755083736290632526740, 36756134843343068649850, 36757121811903140772650, 36758098501132652889130,
  36759112706966998874360, 36760135968122902916750, 36763083883675330143000, 36764105287593551580580, 36766093630509108056930,
  36767109096128846696560, 36771098809200369316700, 36774072090515253012250, 36776099813999880596120, 36777095128387823350630,
  36779112966109886529060, 36781093630509108056930, 36782112966109886529060, 36783095128387823350630, 36784128801346123215360,
  36785118877445369087340, 36786063835350207294260, 36793079921488271403645, 36795145618931863352630, 36797088208952127529180,
  36798073545890248365104, 36801092486872072934750, 36802113110343156140100, 36804104448906002205780, 36805080829995932676870,
  36807061926925913893890, 36808097177060998766720, 36814085237239815488700, 36816065623824061482290, 36817075488211426523590,
  36820092545541378167680, 36824067753154250938780, 36825046755041081148750, 36827055010103575338620, 36828076945042765197110,
  36829086273297332356400, 36830071950925386260430, 36831092204564662182880, 36834137509629701189340, 36836127193613917337840,
  36837118010924198475240, 36838109680114608436060, 36842098768726188594370, 36843089035004139778720, 36845121304752214982480,
  36846173344819085750430, 36848113134585592255180, 36855088409668445133840, 36856118130209907127970, 36857106637155877291700,
  36861079445737680015270, 36864081221435339361890, 36865083338754010031530, 36866071423627345515470, 36867084645213980510900,
  36868140763853705535610, 36870100159423600071430, 36873066017659115412110, 36874113158886940788100, 36877110749004445101200,
  36879084321623800461720, 36880077243592116261945, 36882091197460751927420, 36884089945033365846160, 36887109888455477464490,
  36889046755041081148750, 36890060199829923821890, 36891116509021412363620, 36893099813999880596120, 36894119969438288737250,
  36895081634022505521640, 36896074447383738311750, 36897141989876926458930, 36898116577281063067610, 36899071950925386260430,
  36902166413347280151000, 36910100781846688843630, 36911131913471821835110, 36913065134444172985980, 36914055010103575338620,
  36918131149742033989370, 36920125553584154635140, 36923095330905882835580, 36924097290895437601090, 36926115819092697494100,
  36929128571450940968380, 36930114651849954412700, 36934173344819085750430, 36935083715777804821150, 36938072557813384822560,
  36939065623824061482290, 36941094770011216325130, 36942061926925913893890, 36943105729091397709890, 36944124746695042133720,
  36945141156060837068440, 36946131149742033989370, 36947072471323197263820, 36948073545890248365104, 36949086273297332356400,
  36951074912221815894030, 36953095899120992205480, 36955143387496350210530, 36956113158886940788100, 36958091197460751927420,
  36960076945042765197110, 36963105614015329195080, 36965095899120992205480, 36968129156413007784470, 36969071423627345515470,
  36973081898540799642420, 36974100455542140537870, 36978092204564662182880, 36980125304608638417870, 36981088935220231583950,
  36983092486872072934750, 36984066017659115412110, 36986074912221815894030, 36988088208952127529180, 36989146954245789597860,
  36991084088945695447620, 36992091555625757266480, 36993097177060998766720, 36994124072282234178390, 36995173344819085750430,
  36996067753154250938780, 37000151372573312388250, 37002079921488271403645, 37003131003754039777840, 37007095330905882835580,
  37008166413347280151000, 37009151372573312388250, 37011079661980585329070, 37013136709202624453980, 37015130859866665256850,
  37017138081213839588820, 37019131913471821835110, 37021120666237495117170, 37026095999230642202880, 37027058147496623918940,
  37030115914787207655610, 37034104438727884278770, 37036109112349450415240, 37038089173300713390320, 37039114236852645345160,
  37040115233409155983430, 37041094570847222217580, 37043135058405120859500, 37044141156060837068440, 37045092422425018508340,
  37048131755988252153720, 37049093314532421903120, 37051093439050268311220, 37054173344819085750430, 37057099623638802372570,
  37060149365866357766740, 37061157250439961409430, 37063147695325511135070, 37065151372573312388250, 37066103125054855028840,
  37070101010264899536060, 37071141564280782270980, 37073077818292434959660, 37075125469901657929980, 37079123577481661544690,
  37084128571450940968380, 37085095433723979650170, 37087141564280782270980, 37089101506111935125900, 37090117323630876953440,
  37092166413347280151000, 37094124902948221164520, 37095094176744176374410, 37096060941134783115270, 37099135968122902916750,
  37101071775932175640090, 37103141156060837068440, 37108133271487233425730, 37109089173300713390320, 37112150318968155809980,
  37117085324105720397600, 37118133271487233425730, 37122079597294003484750, 37124143387496350210530, 37126125469901657929980,
  37129081866554419881030, 37138093314532421903120, 37140109112349450415240, 37142094176744176374410, 37145103553366335062340,
  37150136709202624453980, 37154121033732917204570, 37155173344819085750430, 37159079661980585329070, 37165077818292434959660,
  37167129156413007784470, 37168093439050268311220, 37169117623278763972800, 37170150318968155809980, 37178120666237495117170,
  37187173344819085750430, 37190138687460057753180, 37192124902948221164520, 37193137791338470856300, 37194157250439961409430,
  37195112386573461428200, 37196125723079737772880, 37197077979361094763280, 37202081340908674525300, 37207123646686089990430,
  37210125142003429700070, 37213111881526509061470, 37214149365866357766740, 37219116577281063067610, 37221120874578364145580,
  37225141156060837068440, 37226136456024544611070, 37228115293469396585560, 37230143387496350210530, 37231146954245789597860,
  37232118414204652344960, 37233114209789029367740, 37237120717917196701600, 37238140763853705535610, 37239106726271680297330,
  37240094176744176374410, 37247102460731298996500, 37251118706501035494330, 37255111967548544888090, 37257104633906139644970,
  37259121696959346515300, 37261137509629701189340, 37266103027406498119160, 37275143387496350210530, 37276102003881873821780,
  37278111881526509061470, 37290148495752587870430, 37291071502613726753420, 37292114209789029367740, 37300115475845272083360,
  37312102460731298996500, 37319069489695218786510, 37321120874578364145580, 37322093875105508814530, 37323093875105508814530,
  37324078610083370684930, 37325057234411110139620, 37326081298578435949710, 37327097676534293667120, 37329063320487895806860,
  37335166413347280151000, 37336113037966483137800, 37340122224941202185010, 37341085096569693994050, 37347105221368143975640,
  37353162358696199069360, 37356146264317074728340, 37365159481875474551540, 37369155427224393469880, 37380143900429294086030,
  37385120563672493445270, 37389135502922746567830, 37392153885717595197310, 37393166413347280151000, 37396115882787180348910,
  37397115979096110958530, 37406133271487233425730, 37409151372573312388250, 37411116784900977551900, 37414132569444646693240,
  37428105998902486020960, 37431157250439961409430, 37434159481875474551540, 37438121639979135368930, 37439173344819085750430,
  37440111040004609965610, 37457138081213839588820, 37463121526983582829580, 37466124746695042133720, 37467104499952565322620,
  37476123786548509737830, 37484138379743471085630, 37485148495752587870430, 37492092112205894532980, 37496132401373463529430,
  37499122846259013255070, 37504073081132266631000, 37509091705409538200370, 37521129277626613107900, 37523146954245789597860,
  37526166413347280151000, 37528107291839876268420, 37532109408911546244120, 37539173344819085750430, 37541152550403668952090,
  37544141564280782270980, 37550135058405120859500, 37555106142617534397490, 37559083113148441238400, 37561125895497802117940,
  37563151372573312388250, 37564143387496350210530, 37569107184167234422270, 37571143387496350210530, 37573141989876926458930,
  37575138379743471085630, 37580124824516446554270, 37586105671387833096520, 37604118455441824183580, 37605133091302178398950,
  37606162358696199069360, 37610096100352629415070, 37615136209098418707360, 37616142899594708516200, 37624115084818011945930,
  37628083708096329600290, 37636085280578447171750, 37648114967514614091040, 37656120066057397854640, 37657145618931863352630,
  37658122468855733426600, 37659166413347280151000, 37664137509629701189340, 37666083228364075107620, 37670090626778774203360,
  37672126900910094336700, 37675101460691720780910, 37678153885717595197310, 37679082901961209289430, 37683124000079754443520,
  37694162358696199069360, 37707096575447627569630, 37709121928183520723850, 37720134426616104644180, 37723097380896045108470,
  37733131448271665486180, 37749112054316985144990, 37750162358696199069360, 37758173344819085750430, 37762133091302178398950,
  37775135058405120859500, 37782106854973585502680, 37783152550403668952090, 37794127597709300716600, 37798124072282234178390,
  37799122407317077682820, 37801136968957488486570, 37804150318968155809980, 37806083998950381853690, 37811137791338470856300,
  37832100690521853210910, 37834141564280782270980, 37846126159830372799500, 37847123577481661544690, 37852140386450425707140,
  37855117068607948844060, 37857097206632237664150, 37858107566205508539970, 37860121415250576848330, 37864162358696199069360,
  37877155427224393469880, 37891140022773983998400, 37904132740388980286250, 37912082858372755991590, 37931127597709300716600,
  37934121526983582829580, 37938125469901657929980, 37939152550403668952090, 37941071764684234960370, 37956098191373373946080,
  37964131297892891840780, 37969092112205894532980, 37995140386450425707140, 37997146264317074728340, 38000107037985229326720,
  38002111000711828566720, 38007133641899950229220, 38012111400765174703710, 38013094409098350701400, 38014135058405120859500,
  38015122975293061614150, 38024085096569693994050, 38025113037966483137800, 38026166413347280151000, 38030146264317074728340]

def emitB12 : List Nat := [
  38034162358696199069360, 38035105221368143975640, 38037155427224393469880, 38039159481875474551540, 38041116784900977551900,
  38043132569444646693240, 38045135502922746567830, 38046115882787180348910, 38047082858372755991590, 38048120563672493445270,
  38049138379743471085630, 38050083708096329600290, 38051166413347280151000, 38052153885717595197310, 38053107037985229326720,
  38054100414642288022620, 38055133271487233425730, 38056127597709300716600, 38057123786548509737830, 38061143900429294086030,
  38062115979096110958530, 38064159481875474551540, 38065083228364075107620, 38067121526983582829580, 38068157250439961409430,
  38069130578157895589890, 38075094409098350701400, 38076138379743471085630, 38077148495752587870430, 38078111040004609965610,
  38079173344819085750430, 38080121639979135368930, 38081071764684234960370, 38082138081213839588820, 38083105998902486020960,
  38085104499952565322620, 38086124746695042133720, 38105140022773983998400, 38108091705409538200370, 38109107184167234422270,
  38112122407317077682820, 38113134426616104644180, 38114166413347280151000, 38115129277626613107900, 38116124824516446554270,
  38119155427224393469880, 38120146954245789597860, 38121136968957488486570, 38124122846259013255070, 38125107291839876268420,
  38126122468855733426600, 38128132401373463529430, 38129152550403668952090, 38130117068607948844060, 38133141564280782270980,
  38134073081132266631000, 38135173344819085750430, 38136098191373373946080, 38138096100352629415070, 38142100690521853210910,
  38143123577481661544690, 38144083113148441238400, 38145106854973585502680, 38146142899594708516200, 38147133091302178398950,
  38148118455441824183580, 38149096575447627569630, 38150136209098418707360, 38152125895497802117940, 38153143387496350210530,
  38155105671387833096520, 38156141989876926458930, 38160106142617534397490, 38161151372573312388250, 38162143387496350210530,
  38164162358696199069360, 38169082901961209289430, 38170126900910094336700, 38171166413347280151000, 38177101460691720780910,
  38178153885717595197310, 38179111400765174703710, 38180120066057397854640, 38181114967514614091040, 38182090626778774203360,
  38189137509629701189340, 38190112054316985144990, 38191115084818011945930, 38192124000079754443520, 38193145618931863352630,
  38194131448271665486180, 38198162358696199069360, 38202173344819085750430, 38203097380896045108470, 38208121928183520723850,
  38209133091302178398950, 38210121415250576848330, 38215083998950381853690, 38218133641899950229220, 38220127597709300716600,
  38221137791338470856300, 38223124072282234178390, 38224150318968155809980, 38228131297892891840780, 38230107566205508539970,
  38231140386450425707140, 38236097206632237664150, 38242131297892891840780, 38243132740388980286250, 38247146264317074728340,
  38253152550403668952090, 38255125469901657929980, 38256121526983582829580, 38262111000711828566720, 38263152550403668952090,
  38271060027905918418160, 38272071000013889500090, 38275087095111249853760, 38278102091988170643330, 38281085381429757293110,
  38283057084420669745620, 38287128346722382447780, 38290091186641167425900, 38291088564454323600010, 38292105568353149399280,
  38296115414683001909000, 38306151372573312388250, 38307103423854811591550, 38308173344819085750430, 38309129400327539026050,
  38312108257127716033620, 38313108698936048850820, 38316135502922746567830, 38317130578157895589890, 38321086109251658846140,
  38329114048927651851500, 38331097645542533323920, 38332141989876926458930, 38334130718020315337280, 38339152550403668952090,
  38346100711522910982070, 38348126997529203454090, 38356145618931863352630, 38357105939625489688200, 38358086361345081168590,
  38364060530220271701880, 38366129777730818854520, 38369093264490616057360, 38370109096128846696560, 38376071000013889500090,
  38378087095111249853760, 38379102091988170643330, 38381085381429757293110, 38382062102381836786344, 38383086361345081168590,
  38384128346722382447780, 38386091186641167425900, 38388088564454323600010, 38389105568353149399280, 38391107848311663412330,
  38392115414683001909000, 38393098240513521970370, 38394108257127716033620, 38395087472031095921200, 38397108698936048850820,
  38398130578157895589890, 38400129400327539026050, 38401103423854811591550, 38405086109251658846140, 38406135502922746567830,
  38407173344819085750430, 38408130718020315337280, 38409114048927651851500, 38411138081213839588820, 38414097645542533323920,
  38415141989876926458930, 38416093264490616057360, 38417126997529203454090, 38418152550403668952090, 38420100711522910982070,
  38422145618931863352630, 38425105939625489688200, 38426129777730818854520, 38428111198738101528520, 38431078022754523670100,
  38433139004947040898980, 38442141156060837068440, 38446095024677280695760, 38450073197660893532070, 38451082077405604751750,
  38452080915775457255990, 38453085008734258841530, 38454075633835440846620, 38459085442127970963870, 38463069857958457121510,
  38464113606722967057830, 38466147695325511135070, 38468078488610468648230, 38469126249517072627100, 38470075073355892956380,
  38471112454370331281980, 38472063711055708199880, 38475126710428144629770, 38476102369330579602500, 38477078831580671563200,
  38480082485716149770380, 38485086920667524054240, 38491095825765754964340, 38493086920667524054240, 38495166413347280151000,
  38497101362983314731010, 38498075610460953991890, 38499085008734258841530, 38500079120993783558250, 38504111838791401287650,
  38505095040562907547130, 38506095899120992205480, 38512080915775457255990, 38515133091302178398950, 38517101407960901799330,
  38518085662187632037570, 38519090624222863646310, 38520075073355892956380, 38525082077405604751750, 38534088898594099936420,
  38538078022754523670100, 38539095770031419908650, 38541162358696199069360, 38542075633835440846620, 38543068230510959935380,
  38544081815588074688100, 38548092551737165230820, 38549111838791401287650, 38551115353892541145180, 38552127293117225869530,
  38553139671860785885700, 38555126249517072627100, 38556094933821431529250, 38567101744127009789180, 38568068230510959935380,
  38570095040562907547130, 38576152550403668952090, 38577081815588074688100, 38580112454370331281980, 38582102172764054106990,
  38584102172764054106990, 38589134026562758507190, 38590071354185214680350, 38592122846259013255070, 38593104706785171220900,
  38596088330116776240430, 38597089760500095437480, 38598067920921903313660, 38599096405445830657720, 38601134426616104644180,
  38603134026562758507190, 38604101295893983703700, 38605103323259541714220, 38606173344819085750430, 38607113657743485896780,
  38610127095090952907730, 38613090763185470374260, 38614071899323042223610, 38617070327552930224910, 38619113657743485896780,
  38620083933290264144770, 38622092127044894139700, 38626077393554396990970, 38627071354185214680350, 38632092645137595152020,
  38634087597748109582000, 38639151372573312388250, 38642078740055802210500, 38646085698038344584390, 38647080666276303982550,
  38649140022773983998400, 38651062539714600795790, 38654110209338622979480, 38656069155096028922020, 38657159481875474551540,
  38660142434394552167290, 38663088397388459963990, 38665112141844896240940, 38669089392303879640490, 38670105705970000126080,
  38671146954245789597860, 38675123172020717601200, 38678143387496350210530, 38684112966109886529060, 38686118834434550093440,
  38695110209338622979480, 38698162358696199069360, 38701145618931863352630, 38704133271487233425730, 38706088259259105544700,
  38712098803408304283650, 38713115055362909648370, 38717159481875474551540, 38724145618931863352630, 38728081454673233136140,
  38738070517363400999250, 38739133641899950229220, 38742108286978484468150, 38745086848579299783180, 38746133641899950229220,
  38747131297892891840780, 38748086848579299783180, 38750070867665574019405, 38752095613082280925090, 38753138687460057753180,
  38754063236866490035830, 38758121033732917204570, 38761073106811905289070, 38771113760572155452630, 38772121304752214982480,
  38774113134585592255180, 38795102586730445966570, 38797109853429171952450, 38799095417201877585180, 38801114708507329769470,
  38808133832381899936160, 38816112966109886529060, 38819134026562758507190, 38829100967037166516020, 38849115914787207655610,
  38851114708507329769470, 38859078306513638641040, 38860111627813111641280, 38867078305768009889250, 38876118291503726426810,
  38886078306513638641040, 38887111627813111641280, 38889078305768009889250, 38892118291503726426810, 38893122164880961582880,
  38899078782193983953120, 38901107635989462354600, 38902120411770838505500, 38907107635989462354600, 38911089401345471576530,
  38913116108968066226620, 38914088125002004270100, 38915105331988741034230, 38917077005745931267140, 38918078367845169710260,
  38920093208077657423590, 38923151372573312388250, 38924112499824954998730, 38926138379743471085630, 38928071777096478127190,
  38929094616457335493200, 38930089004529584195760, 38931092927471970875060, 38935108698936048850820, 38936062960179946348800,
  38940129777730818854520, 38945138081213839588820, 38948111503330176375600, 38957073868817814205950, 38960143900429294086030,
  38967129524552739011620, 38968107580123395268200, 38969112730249896470270, 38971085624914720428030, 38982108316918626594200,
  38988088952502586285180, 38989091751071717996170, 38990149365866357766740, 38991085925464444808990, 38994173344819085750430,
  38995127911871263050400, 39000084440713566007620, 39003100916839857812870, 39006078330403161014250, 39010146264317074728340,
  39015078013336621717060, 39019099981962485537470, 39023071986135993722250, 39025119826237750989770, 39027137791338470856300,
  39028126710428144629770, 39029116108968066226620, 39030088125002004270100, 39031105331988741034230, 39033077005745931267140,
  39034078367845169710260, 39035093208077657423590, 39037094616457335493200, 39038078013336621717060, 39039092927471970875060,
  39040138379743471085630, 39041089004529584195760, 39042112499824954998730, 39044071777096478127190, 39045119826237750989770,
  39046062960179946348800, 39047108698936048850820, 39048107580123395268200, 39049138081213839588820, 39050143900429294086030,
  39052129777730818854520, 39053129650340561080220, 39056111503330176375600, 39057085624914720428030, 39059112730249896470270,
  39060129524552739011620, 39062132914306407404940, 39063108316918626594200, 39064088952502586285180, 39065173344819085750430,
  39066149365866357766740, 39067127911871263050400, 39068085925464444808990, 39069091751071717996170, 39070137791338470856300,
  39071146264317074728340, 39072100916839857812870, 39076099981962485537470, 39079126710428144629770, 39080068149172225560310,
  39087123305356026295850, 39094120262142111738390, 39100128236224020581930, 39108096781447421448600, 39110124669474581194620,
  39118068149172225560310, 39122123305356026295850, 39123120262142111738390, 39125128236224020581930, 39128096781447421448600,
  39129124669474581194620, 39131071998429533231780, 39134071998429533231780, 39135076008341353308150, 39138100159423600071430,
  39144142899594708516200, 39151089526503550894830, 39154087755711238069370, 39156117286798422790460, 39164097697248956693150,
  39165100034216033564110, 39166111360031920827360, 39171113430173614670620, 39173117032701267536780, 39177131600946386794070,
  39178081776478041220010, 39180124516799859886720, 39184096184666419324570, 39185130578157895589890, 39187105046881710626180,
  39190166413347280151000, 39192077356869573241030, 39194141156060837068440, 39195126616530741131380, 39198124592845853738920,
  39201125061681712727420, 39208105265469648751180, 39219166413347280151000, 39221114428376967492720, 39222173344819085750430,
  39226173344819085750430, 39230131448271665486180, 39231134843343068649850, 39235131448271665486180, 39237106337507990272330,
  39243126159830372799500, 39250104886020333109950, 39253134026562758507190, 39255142899594708516200, 39262132401373463529430,
  39269100159423600071430, 39271166413347280151000, 39277089526503550894830, 39278087755711238069370, 39279124592845853738920,
  39280111360031920827360, 39281100034216033564110, 39282097697248956693150, 39284117286798422790460, 39285124516799859886720,
  39286104886020333109950, 39287131600946386794070, 39290113430173614670620, 39292117032701267536780, 39293130578157895589890,
  39294166413347280151000, 39295105046881710626180, 39300126616530741131380, 39301125061681712727420, 39302105265469648751180,
  39304126159830372799500, 39305173344819085750430, 39306134843343068649850, 39307132401373463529430, 39309131448271665486180,
  39310173344819085750430, 39311131448271665486180, 39314106337507990272330, 39315147695325511135070, 39318067572084002075990]

def emitB13 : List Nat := [
  39321076176251844209690, 39333134426616104644180, 39336135968122902916750, 39340152550403668952090, 39341166413347280151000,
  39342081397629175018180, 39345128236224020581930, 39347100086744059792700, 39348105556970108898670, 39361111796238145586260,
  39376085490953212908880, 39377146954245789597860, 39378140022773983998400, 39381093099470369693480, 39385107963420848073750,
  39387105036076739288650, 39389112800425623056740, 39391132401373463529430, 39394124902948221164520, 39405107692169385396830,
  39409096328295459328180, 39423118580183566435340, 39437159481875474551540, 39438087289116065413930, 39439159481875474551540,
  39449104428560115227900, 39472101798665516613800, 39479102783066244746330, 39486105287593551580580, 39488104950054703462020,
  39491129524552739011620, 39493090240669143867520, 39498148495752587870430, 39501115143989782226810, 39509101628250858065300,
  39511100212615214847420, 39514078884372032397930, 39515110012022804353540, 39519108483211196309540, 39522114048927651851500,
  39530135502922746567830, 39532064998938325112810, 39533166413347280151000, 39534128236224020581930, 39535105556970108898670,
  39536100086744059792700, 39537090240669143867520, 39539111796238145586260, 39540114048927651851500, 39542105036076739288650,
  39543132401373463529430, 39544107963420848073750, 39545140022773983998400, 39547085490953212908880, 39548112800425623056740,
  39549146954245789597860, 39550093099470369693480, 39551110012022804353540, 39553115143989782226810, 39554107144087020446880,
  39556101628250858065300, 39557148495752587870430, 39558096328295459328180, 39559107692169385396830, 39560124902948221164520,
  39562135502922746567830, 39564100212615214847420, 39567118580183566435340, 39568159481875474551540, 39569087289116065413930,
  39570159481875474551540, 39575104428560115227900, 39578102783066244746330, 39584129524552739011620, 39585105287593551580580,
  39588108483211196309540, 39592086328028375354760, 39599116611586414035510, 39600113256687231324480, 39606152550403668952090,
  39607119273101371149240, 39608124441327803532900, 39616157250439961409430, 39618162358696199069360, 39627136209098418707360,
  39628146954245789597860, 39633153885717595197310, 39635138081213839588820, 39636065806938652046070, 39637146954245789597860,
  39638136209098418707360, 39640056340069098617960, 39641151372573312388250, 39661138379743471085630, 39663146264317074728340,
  39683136456024544611070, 39699124746695042133720, 39714124746695042133720, 39715132236080444017330, 39717079697908767689360,
  39719098240513521970370, 39721138081213839588820, 39729173344819085750430, 39730140386450425707140, 39740093703261897341060,
  39745109492875095773190, 39746108967302588386430, 39748120512781798370550, 39749104237311206131090, 39757145618931863352630,
  39759081956375383039300, 39761145618931863352630, 39764095016743920501780, 39770077045763041119150, 39791084339328946387420,
  39799114996711715124400, 39809145012685645188280, 39822114880431335173200, 39825097108399620634720, 39826173344819085750430,
  39851157250439961409430, 39853133091302178398950, 39854081375307737178770, 39873155427224393469880, 39881112591358774863600,
  39882113480299032906050, 39894162358696199069360, 39899148495752587870430, 39905135058405120859500, 39908151372573312388250,
  39911141564280782270980, 39912125304608638417870, 39914143900429294086030, 39920117434949280641870, 39933131003754039777840,
  39935117738002775595160, 39945110806530969995710, 39955141156060837068440, 39971115506567262453060, 39973145618931863352630,
  39985143900429294086030, 39986131600946386794070, 39993143900429294086030, 39995126159830372799500, 39998162358696199069360,
  40008134426616104644180, 40009149365866357766740, 40018147695325511135070, 40020138687460057753180, 40022117068607948844060,
  40023110961572835355360, 40024110447663376660470, 40055120717917196701600, 40056129036651097317300, 40060077045763041119150,
  40063114996711715124400, 40065084339328946387420, 40069145012685645188280, 40071114880431335173200, 40072129036651097317300,
  40075173344819085750430, 40077097108399620634720, 40081133091302178398950, 40091157250439961409430, 40092081375307737178770,
  40095110447663376660470, 40096155427224393469880, 40098143900429294086030, 40099143900429294086030, 40100112591358774863600,
  40101115506567262453060, 40104113480299032906050, 40107131003754039777840, 40109162358696199069360, 40110143900429294086030,
  40113135058405120859500, 40114151372573312388250, 40115141564280782270980, 40118117434949280641870, 40119148495752587870430,
  40120125304608638417870, 40131141156060837068440, 40132120717917196701600, 40135110806530969995710, 40138117738002775595160,
  40140131600946386794070, 40143145618931863352630, 40148162358696199069360, 40149134426616104644180, 40150149365866357766740,
  40151126159830372799500, 40153166413347280151000, 40156117068607948844060, 40157138687460057753180, 40158110961572835355360,
  40159147695325511135070, 40165094412830390304340, 40167153885717595197310, 40169142899594708516200, 40179086218864208263210,
  40180103506919433169080, 40182138687460057753180, 40198140022773983998400, 40199134026562758507190, 40201100482901938726620,
  40213128236224020581930, 40219106166772135513520, 40221166413347280151000, 40223117032701267536780, 40232102352801650219510,
  40239143387496350210530, 40251110710836459834200, 40255109459205030294150, 40275135502922746567830, 40284139004947040898980,
  40285115384241578096720, 40298129650340561080220, 40300126340015427826270, 40306132401373463529430, 40327155427224393469880,
  40329157250439961409430, 40361173344819085750430, 40367143900429294086030, 40372106764708627042960, 40386129277626613107900,
  40403104408255539724080, 40407149365866357766740, 40409162358696199069360, 40422166413347280151000, 40431173344819085750430,
  40434133271487233425730, 40440141564280782270980, 40441111967548544888090, 40442136456024544611070, 40469136709202624453980,
  40474116996923054057940, 40475148495752587870430, 40478146264317074728340, 40479094412830390304340, 40480142899594708516200,
  40481092127044894139700, 40482138687460057753180, 40483103506919433169080, 40485149365866357766740, 40486100482901938726620,
  40488134026562758507190, 40489140022773983998400, 40491155427224393469880, 40492136709202624453980, 40493102352801650219510,
  40497117032701267536780, 40498166413347280151000, 40499106166772135513520, 40501128236224020581930, 40503162358696199069360,
  40504143387496350210530, 40509109459205030294150, 40510146264317074728340, 40511110710836459834200, 40513135502922746567830,
  40517115384241578096720, 40520139004947040898980, 40522132401373463529430, 40524129650340561080220, 40527126340015427826270,
  40529157250439961409430, 40540173344819085750430, 40542129277626613107900, 40548106764708627042960, 40550116996923054057940,
  40551104408255539724080, 40553173344819085750430, 40554166413347280151000, 40555133271487233425730, 40556141564280782270980,
  40557136456024544611070, 40560111967548544888090, 40563148495752587870430, 40565103961974245580840, 40572105833804396382830,
  40573093435664454837180, 40575088214975619328620, 40578140763853705535610, 40587096570814780602370, 40594123786548509737830,
  40599097206632237664150, 40605122285364346744640, 40607145618931863352630, 40613089746445279350130, 40614089746445279350130,
  40617141564280782270980, 40632141564280782270980, 40635081614281213848780, 40636140386450425707140, 40638113864469193943980,
  40643143900429294086030, 40644060617952903476620, 40653151372573312388250, 40654090611453100705570, 40655114075558826046330,
  40657072512177014299190, 40660117699615012523500, 40664092041283611438050, 40667103798430436940560, 40668159481875474551540,
  40669122105179291717840, 40670075385795667188535, 40671137509629701189340, 40672134224589031468980, 40679135278194188047230,
  40680076705849210234430, 40681150318968155809980, 40687108301937350383980, 40692112141844896240940, 40695150318968155809980,
  40700173344819085750430, 40701162358696199069360, 40702162358696199069360, 40703147695325511135070, 40715147695325511135070,
  40718106106494677538340, 40723084523678643662240, 40736109560557249234570, 40738150318968155809980, 40748140022773983998400,
  40751146264317074728340, 40756143387496350210530, 40759173344819085750430, 40761143387496350210530, 40763090260363881892830,
  40766120114719294366360, 40778082378703019272040, 40779109731794310020480, 40783138687460057753180, 40784082378703019272040,
  40785138687460057753180, 40786112614373744746390, 40793159481875474551540, 40796137235639959308190, 40799135968122902916750,
  40801149365866357766740, 40818130718020315337280, 40823130304168153708740, 40831112614373744746390, 40835135968122902916750,
  40836149365866357766740, 40837159481875474551540, 40839137235639959308190, 40843130718020315337280, 40844130304168153708740,
  40845078924744143437740, 40848087342351620235200, 40852095571083059171830, 40857078924744143437740, 40858095571083059171830,
  40860108951315374749460, 40863108951315374749460]

/-- `emit_P['B']`, jieba/finalseg/prob_emit.py -/
def emitB : List Nat :=
  emitB0 ++ ( emitB1 ++ ( emitB2 ++ ( emitB3 ++ ( emitB4 ++ ( emitB5 ++ ( emitB6 ++ ( emitB7 ++ ( emitB8 ++ ( emitB9 ++ (
  emitB10 ++ ( emitB11 ++ ( emitB12 ++ (emitB13)))))))))))))

def emitM0 : List Nat := [
  19968044281585264359130, 19969079329456875985020, 19971065597155259515860, 19975061399223741206670, 19976094129540589898950,
  19977054763582598738080, 19978068274349900401425, 19979062938404146540990, 19981044397595426044480, 19982084453700327281890,
  19984122032423583290760, 19985115244839152212300, 19987086904184194304490, 19988108833930966173400, 19989092018120636604480,
  19990058228777199876260, 19992091947348932863630, 19993096295402097579450, 19994057200039538607480, 19995095261424032679680,
  19996063985377746139810, 19997082759085916638390, 19998097231089872937350, 20004074027403788110160, 20005095124836543369270,
  20006093566732230913040, 20007096037323258020720, 20010064205606867014180, 20011096855458857180850, 20013052531941671566880,
  20016086421962757250250, 20018115390827146423830, 20020090407857247948000, 20024110857615853565840, 20025076544913636749090,
  20026066304367188302550, 20027047823384415827830, 20029065416717324821850, 20030078792989347362200, 20035088528371435070260,
  20037076517743808714380, 20040114018815931288980, 20041067342182455564600, 20043056140408154658080, 20044095047616082430170,
  20045115100951777691300, 20046088488371381736800, 20047106227919827682290, 20048065494507684188270, 20050104453844407767030,
  20051094894941361122300, 20052091863078771244830, 20054126675479664601750, 20056099035184976160640, 20057089832243288820980,
  20060150654432392585460, 20061066404749918848250, 20062125397145949502900, 20063087982426907171830, 20064085477719663462700,
  20065091371847680543560, 20070062112065458528030, 20080088320133865957650, 20081084035884987132330, 20083092060825327839000,
  20094094414257330712060, 20098084035884987132330, 20102085701776833215370, 20104103604277183007380, 20105078598080628481810,
  20107058325100186297280, 20108053677198876429210, 20110075937956155737250, 20111104907322607551630, 20113067664060576454785,
  20114085877019413059850, 20115146599781311503800, 20116061777905489329585, 20117080519775058542940, 20120143722960586986000,
  20121143722960586986000, 20122063320908303025430, 20123089385740551443610, 20126063320908303025430, 20129085280272664091990,
  20130122928545170187640, 20132061320428432022420, 20133080319367549708480, 20134085029991455648250, 20135049885697674237680,
  20136100784178108014220, 20139110490602185061560, 20140059486446116907260, 20141097159575861361100, 20142093385954916713490,
  20146085215313936937530, 20149150654432392585460, 20150157585904198184910, 20154043741348925597910, 20159084460369217158920,
  20160062089247422386880, 20161079190648381138120, 20163125805365894705460, 20165081074702441157900, 20166097797046549173690,
  20167095520144930935640, 20169150654432392585460, 20170086929770562207730, 20171076433684472561620, 20173135613658424822710,
  20174084581176055506920, 20177093353434562849700, 20179098157910446917890, 20180103292447908640490, 20181096763715094420440,
  20182089331303835631830, 20183106834166045846640, 20184096426982943354570, 20185085861658426936460, 20189123912945898320160,
  20190136791488781386550, 20191139668309505904350, 20193150654432392585460, 20195046367391112210640, 20196072159244324292220,
  20197068255858282399440, 20202099092656398716300, 20203139668309505904350, 20204102737934863278360, 20208104355804406800830,
  20210080933057013471400, 20214083404095970917030, 20215072344216146658280, 20219076961576282352950, 20221083332325327913390,
  20223117512572345860190, 20225079313495180656790, 20233135613658424822710, 20234080218467373649960, 20235157585904198184910,
  20237105382345947401660, 20238122928545170187640, 20239090086592260299200, 20240082275740877405750, 20241097771762085640100,
  20247078233608800015840, 20248088833583325419130, 20249080019670852796330, 20250050358518099266910, 20254110857615853565840,
  20255074325577338634120, 20256072838872800232055, 20260092468450901737620, 20262074325577338634120, 20266104355804406800830,
  20271065274675086597790, 20272110400915485233960, 20276114018815931288980, 20278100648582810157910, 20280115842031499228530,
  20284094970987354974490, 20285120697109657045530, 20291120209208015351230, 20294121210042600921050, 20301085208122278950480,
  20302091905125084065150, 20303091070185462287640, 20304087067347968625960, 20305090566300538159510, 20307067222463558902720,
  20308086735261258659420, 20309077155695345202080, 20311150654432392585460, 20313066085309787272380, 20314157585904198184910,
  20315086389547818008550, 20316058508120858652060, 20319157585904198184910, 20320108386094939903650, 20323101788605938322690,
  20324129860016975787100, 20325122032423583290760, 20329082619379816502080, 20332099444598879934250, 20336106709940845861070,
  20339077840575756882620, 20342126675479664601750, 20348108313367346612870, 20351090145312335071420, 20355106771860548340280,
  20356141491525073843900, 20358060419747611751350, 20360099809380965958340, 20363099150460027871300, 20365100750106524798100,
  20369115100951777691300, 20375119973903041249270, 20379089287966823060660, 20381078421475596962305, 20384100028482062315780,
  20387146599781311503800, 20390123912945898320160, 20391115100951777691300, 20392106052988253207100, 20393136791488781386550,
  20394157585904198184910, 20399088528371435070260, 20405103972982541090650, 20406146599781311503800, 20415088001420265208360,
  20417120209208015351230, 20419106834166045846640, 20420088700179602531270, 20421138126802707631780, 20426073512120944094590,
  20430125805365894705460, 20431114681309786701000, 20432112699540500863510, 20433116981474092720710, 20439096971335008904730,
  20440127628581462644990, 20445068414137838633270, 20446114545253266143220, 20447139668309505904350, 20448100028482062315780,
  20449074730771107387500, 20451120209208015351230, 20456157585904198184910, 20457157585904198184910, 20458131195330902032320,
  20461102696526936618040, 20462083647121297107350, 20463139668309505904350, 20465087628242635136400, 20472131195330902032320,
  20486157585904198184910, 20489136791488781386550, 20491064205606867014180, 20493101273786379971260, 20497102737934863278360,
  20498091849102528578450, 20505103075519662527900, 20506123912945898320160, 20508120950287736888440, 20510136791488781386550,
  20511100716150634786700, 20513112368018427694500, 20514157585904198184910, 20517125805365894705460, 20518146599781311503800,
  20520139668309505904350, 20521094199963416153080, 20522131195330902032320, 20523074325577338634120, 20524132736837700304910,
  20525136791488781386550, 20535136791488781386550, 20538103926144047966390, 20540081507123465399830, 20542096650206497733550,
  20547133606951470201200, 20548157585904198184910, 20551088679812996713250, 20553074325577338634120, 20558157585904198184910,
  20559106771860548340280, 20565118873894089106000, 20570097771762085640100, 20572100548079451622900, 20581082042555960927430,
  20594157585904198184910, 20596115100951777691300, 20597123912945898320160, 20598114545253266143220, 20599104703233891239550,
  20603118073467012370640, 20605104355804406800830, 20607100123872292783370, 20608128141514406520500, 20613115100951777691300,
  20616129253770757622740, 20621100415627184122690, 20625087250839355307940, 20632110857615853565840, 20633080497308187713160,
  20643115538978004275240, 20647150654432392585460, 20648092018120636604480, 20652124627535538141620, 20653101788605938322690,
  20658115997073364588190, 20659072838872800232055, 20661103926144047966390, 20663092468450901737620, 20667113397498120218930,
  20670096650206497733550, 20674118073467012370640, 20677081074702441157900, 20681122032423583290760, 20687087437760685429460,
  20689106052988253207100, 20693097797046549173690, 20694119519279300481710, 20698097303118995877930, 20711096165530142311330,
  20721134560053268244440, 20723114147849979648070, 20725120697109657045530, 20729072344216146658280, 20731117512572345860190,
  20736099092656398716300, 20740084460369217158920, 20742120950287736888440, 20744136791488781386550, 20745102696526936618040,
  20752150654432392585460, 20754095952756157838500, 20757157585904198184910, 20767100123872292783370, 20769131936410623569550,
  20778088833583325419130, 20786092018120636604480, 20791131195330902032320, 20796157585904198184910, 20799075208466159275575,
  20800114819243008024350, 20801098477937757779640, 20803061171821723546390, 20804083934102937974780, 20805099965390370383140,
  20806079116094376797030, 20807106110959430050380, 20808071592643988637310, 20809067546594001653530, 20811058213296571754420,
  20812157585904198184910, 20813097448752637756880, 20817157585904198184910, 20818075208466159275575, 20820118465674143903450,
  20822157585904198184910, 20823157585904198184910, 20826073924527033222090, 20828117155391519839400, 20834097303118995877930,
  20837078155177025405580, 20839068304803416158440, 20840068075390457928710, 20841074027403788110160, 20843062272540963605940,
  20844049879183495161605, 20845065373101078039735, 20846111736229411479190, 20848066249151327777930, 20849054112828052977340,
  20851071303926703593420, 20852071469965529807680, 20853075240254265513550, 20854066030230736896000, 20855084223047597971930,
  20856087887997499169010, 20857088183679506988510, 20859081835187203109300, 20860097646289925119220, 20861112152956375484860,
  20864094578046251552460, 20869068304803416158440, 20870136791488781386550, 20872078098519650048800, 20873109144033333599000,
  20874101166833488803770, 20876101166833488803770, 20877089191139815896480, 20881138126802707631780, 20882100784178108014220,
  20885111634705696839000, 20887157585904198184910, 20889109383088542134530, 20891061378637354150750, 20892070240303298654980,
  20896082211603832319820, 20898100317426722312940, 20900111046300696609670, 20901104307142510289100, 20908082158468744499400,
  20911121750714813623800, 20912082963754800503010, 20914080510782252181500, 20915077795940489643760, 20916125805365894705460,
  20917107216378174048610, 20918091891089994041940, 20919084778932244337500, 20923107281524984260560, 20928090578593102706800,
  20932126675479664601750, 20934084723987051161080, 20935157585904198184910, 20937091919179900152500, 20939136791488781386550,
  20940085551848987353960, 20941107281524984260560, 20943107087344125689530, 20945128141514406520500, 20955095910739289301490,
  20956095910739289301490, 20957086810923662492580, 20960069959443901682090, 20961090878240989726160, 20964075952191033585790,
  20973116314560347733980, 20975089021284352239040, 20976095580812457758010, 20977089021284352239040, 20982106110959430050380,
  20984112926823011639070, 20985133606951470201200, 20986072328339977417650, 20987072581365524065510, 20988141491525073843900,
  20989100716150634786700, 20991118667701217078640, 20992085754787180752100, 20993138126802707631780, 20995100382786432110790,
  20998062386352653909780, 20999085338370140505190, 21002112587807494882260, 21005131195330902032320, 21009102134129753389280,
  21010076421733470242860, 21015074804161288747530, 21016091083113712310680, 21017085433504410883930, 21018090311586949676350,
  21019093921199720870520, 21021093921199720870520, 21028081667287049285570, 21029076165271367143440, 21032146599781311503800,
  21033056076570234451880, 21035076165271367143440, 21038115689356777920660, 21040077399649547727410, 21046071305716733133680,
  21047096165530142311330, 21048086341121573250670, 21049102056308348968730, 21050106052988253207100, 21051084171065674553300,
  21056150654432392585460, 21058117332387290833410, 21059150654432392585460, 21063085433504410883930, 21066102655289764779420,
  21068106587239919942910, 21069079369472935785090, 21070102056308348968730, 21073077920037221800880, 21076113765637851446100,
  21078102863197461470150, 21083090311586949676350, 21085131195330902032320, 21093131195330902032320, 21095083350219755593230,
  21097112699540500863510, 21098131936410623569550, 21103084308098813968600, 21106104804757605879730, 21108150654432392585460,
  21109093921199720870520, 21123076421733470242860, 21127083350219755593230, 21128129253770757622740, 21129091083113712310680,
  21133077920037221800880, 21137117332387290833410, 21147065771640580069500, 21149125397145949502900, 21150087180540296025340,
  21151075282796206834695, 21152064064033236140720, 21153050871729422787310, 21155107749837981101550, 21160055613144763988210,
  21161079724539820354180, 21162092528063596902610, 21163102737934863278360, 21165123912945898320160, 21169112259909266652350,
  21170091057273904651430, 21171078834711387781980, 21180157585904198184910, 21182141491525073843900, 21183084689798983673230,
  21185091057273904651430, 21187088359465283426030, 21191084288407307769780, 21193116477165556451790, 21195109545693750852330]

def emitM1 : List Nat := [
  21200138126802707631780, 21202074665427823871360, 21205055613144763988210, 21206150654432392585460, 21207150654432392585460,
  21208127140679820950680, 21209050871729422787310, 21213069767279302595450, 21214078834711387781980, 21215136791488781386550,
  21218084689798983673230, 21220092483320792953410, 21232150654432392585460, 21235109545693750852330, 21237112259909266652350,
  21240125397145949502900, 21242122322298952023290, 21243122928545170187640, 21246106648402190117280, 21247112699540500863510,
  21248122928545170187640, 21253086794060252088220, 21254098450874141802200, 21263139668309505904350, 21264129860016975787100,
  21269139668309505904350, 21270059307427814911080, 21271053638271027610870, 21273121476725071742650, 21277120209208015351230,
  21280110764591926942710, 21281102134129753389280, 21283116477165556451790, 21290113277736209751780, 21294124263859096432870,
  21295093700290142728600, 21297124263859096432870, 21305091682893716218050, 21306064342965577664620, 21307079699643541934590,
  21310157585904198184910, 21311113397498120218930, 21312064342965577664620, 21313049461993538422250, 21315057940548057174290,
  21317103205111108952940, 21319078049206411686920, 21320092335607619750280, 21321116314560347733980, 21322066610828561166520,
  21326052764971070954130, 21327075552863930232080, 21329095785737661659190, 21330121210042600921050, 21331089418545392235220,
  21332075552863930232080, 21333093353434562849700, 21334092032335280078250, 21335059311743042336580, 21338074178957718934190,
  21340091682893716218050, 21342146599781311503800, 21344086735261258659420, 21345079862588446488770, 21346094253107916788000,
  21348122322298952023290, 21350105010950477907100, 21351110136582914552400, 21355068216348155932645, 21359121210042600921050,
  21360087600807775678900, 21361097721384145340530, 21363096672805377407920, 21364108533156413800600, 21365099996886459412100,
  21367100818366175502100, 21368099121516447607670, 21369116477165556451790, 21371108533156413800600, 21375106227919827682290,
  21378108098305294403230, 21380111238614315888550, 21381117155391519839400, 21382083302572256276850, 21385102696526936618040,
  21387087528014005649870, 21388108313367346612870, 21397139668309505904350, 21400093784678829187250, 21402081697605415106780,
  21405143722960586986000, 21407076130407880349065, 21410105010950477907100, 21413110857615853565840, 21414116810529759127700,
  21421108313367346612870, 21422128141514406520500, 21426102696526936618040, 21435087303889877604860, 21439093500616287589920,
  21441157585904198184910, 21442084635340033558600, 21443084635340033558600, 21448088649340652158560, 21449095009228319358530,
  21450084223047597971930, 21451079389541174508990, 21452081022532533883070, 21453077528897411559480, 21457062779939292139050,
  21460087546162830958100, 21462084980678217286380, 21463091560025276291540, 21464077923506432590230, 21465106648402190117280,
  21467110490602185061560, 21471127140679820950680, 21472096382930008675400, 21474095261424032679680, 21475063885149897211490,
  21476066021783898678640, 21477093869785725866330, 21478141491525073843900, 21480110672425375893480, 21481134560053268244440,
  21482114819243008024350, 21483099965390370383140, 21484084903673986589250, 21485107749837981101550, 21486105712046139777360,
  21487061676242297477890, 21488079449988668660570, 21490073674140689857400, 21491080015392777864780, 21493117332387290833410,
  21494076996304020490730, 21495089180438905298040, 21496075943647675526640, 21497099686302489212370, 21499157585904198184910,
  21501114819243008024350, 21505099625326690531180, 21507084106465966698030, 21508078868977554948460, 21510143722960586986000,
  21512058837081242926965, 21513071309297753762820, 21514103514186483583720, 21516065801535968553160, 21517071042473902550190,
  21518076502681296452510, 21519116314560347733980, 21520089617667015436350, 21521073719615984233690, 21522117882985062663690,
  21523122620828583520100, 21525096605161376522500, 21527135613658424822710, 21531079774519099734750, 21533128141514406520500,
  21534094688748489094930, 21535097547033527119510, 21536143722960586986000, 21537133606951470201200, 21542102573322092737640,
  21543139668309505904350, 21544092498212828468080, 21545157585904198184910, 21547099933993170336460, 21548087794451447496800,
  21549133606951470201200, 21551078476330369729020, 21553116642458575963900, 21555101491186246335300, 21556101491186246335300,
  21557107087344125689530, 21558117882985062663690, 21560089451458203075940, 21561094077047031037500, 21563141491525073843900,
  21564135613658424822710, 21566083021358646422810, 21568114278570795321600, 21570096605161376522500, 21574095144235191547540,
  21576103972982541090650, 21578082254316123629270, 21579127628581462644990, 21584117882985062663690, 21592048524509697601640,
  21596101601684608201150, 21604157585904198184910, 21608080710516536168600, 21617121476725071742650, 21619075221698925530990,
  21621104114828891010220, 21627128682186619223260, 21628083284762812566900, 21629070185737282989690, 21632130505402187162800,
  21634131936410623569550, 21636104258716265531210, 21643136791488781386550, 21644055390884725635460, 21646116314560347733980,
  21647103161727092966980, 21650121750714813623800, 21653105995351206039620, 21654136791488781386550, 21658123912945898320160,
  21659128141514406520500, 21661141491525073843900, 21667150654432392585460, 21668117882985062663690, 21670135613658424822710,
  21671106466026314619470, 21672136791488781386550, 21674116642458575963900, 21675102696526936618040, 21676103380554205462050,
  21679123246032153333440, 21682105010950477907100, 21683132736837700304910, 21684157585904198184910, 21688108313367346612870,
  21691127140679820950680, 21693107887771202424900, 21695122928545170187640, 21696103604277183007380, 21697076288259740243190,
  21700101381895541013410, 21702120950287736888440, 21703109223085128670120, 21704072971213771746150, 21705122032423583290760,
  21708130505402187162800, 21709083915133599374790, 21713120209208015351230, 21714157585904198184910, 21715117512572345860190,
  21719110857615853565840, 21729048524509697601640, 21733080961226046182540, 21735123246032153333440, 21736126230962038893410,
  21737150654432392585460, 21738129253770757622740, 21741101638790402166510, 21742126230962038893410, 21746092438777289459600,
  21754146599781311503800, 21756115390827146423830, 21759150654432392585460, 21766128141514406520500, 21767106169268633158300,
  21776097646289925119220, 21777125397145949502900, 21792115538978004275240, 21796108027633622172300, 21799131195330902032320,
  21806085440860056673480, 21807093700290142728600, 21809089696186768263200, 21827133606951470201200, 21830072522559717371290,
  21833146599781311503800, 21834126675479664601750, 21839085396807121994300, 21845117155391519839400, 21854120209208015351230,
  21855146599781311503800, 21857094951921572268670, 21860123912945898320160, 21862104503227224172850, 21863113765637851446100,
  21866111434699029772300, 21868128141514406520500, 21878143722960586986000, 21880094800689956526460, 21883150654432392585460,
  21884111238614315888550, 21888093467721521085940, 21891107151653028992440, 21892081502159454377080, 21894131936410623569550,
  21895099965390370383140, 21897114147849979648070, 21898099237796827558850, 21899113277736209751780, 21912098780574334177900,
  21914108027633622172300, 21916083155120454699760, 21917102779514964764990, 21927117696063732542160, 21930096037323258020720,
  21932091863078771244830, 21934093353434562849700, 21937150654432392585460, 21939109144033333599000, 21943102451616736535080,
  21947102017623581189540, 21949157585904198184910, 21950157585904198184910, 21959128141514406520500, 21966135613658424822710,
  21971117155391519839400, 21972132736837700304910, 21974134560053268244440, 21978101601684608201150, 21980157585904198184910,
  21981146599781311503800, 21983157585904198184910, 21987086133942848213200, 21989150654432392585460, 21994150654432392585460,
  21995132736837700304910, 22002128141514406520500, 22007121476725071742650, 22013139668309505904350, 22016115842031499228530,
  22017119973903041249270, 22022099686302489212370, 22024135613658424822710, 22025074852538213140045, 22028127140679820950680,
  22029157585904198184910, 22030107957457895585840, 22038113765637851446100, 22039092785458578918370, 22040126230962038893410,
  22043109710986770364440, 22047116477165556451790, 22055122928545170187640, 22057110857615853565840, 22062115538978004275240,
  22063094800689956526460, 22064114819243008024350, 22065123912945898320160, 22066113277736209751780, 22068099267079425349730,
  22069117512572345860190, 22070110312026011061500, 22075092175604206285870, 22079150654432392585460, 22094127140679820950680,
  22099126230962038893410, 22108122322298952023290, 22109141491525073843900, 22112157585904198184910, 22120084594689571076900,
  22121115538978004275240, 22122110312026011061500, 22124125805365894705460, 22132102451616736535080, 22134096924823297147430,
  22136092498212828468080, 22139143722960586986000, 22140119519279300481710, 22144128141514406520500, 22149132736837700304910,
  22151122620828583520100, 22163135613658424822710, 22165122322298952023290, 22179113397498120218930, 22195157585904198184910,
  22196095124836543369270, 22199115689356777920660, 22204115244839152212300, 22209132736837700304910, 22210113397498120218930,
  22218102017623581189540, 22225123912945898320160, 22228124627535538141620, 22231136791488781386550, 22234128141514406520500,
  22235061107696103021320, 22238079011096328759610, 22240081522030300458380, 22241150654432392585460, 22242073200076289841650,
  22253086149728171143690, 22255157585904198184910, 22256091318726705694660, 22260103380554205462050, 22261131936410623569550,
  22265128141514406520500, 22266088710378481538740, 22269041246250064725185, 22270082826844504510930, 22271136791488781386550,
  22275132736837700304910, 22278082509003419985870, 22279131936410623569550, 22280098316643938480800, 22281143722960586986000,
  22283041246250064725185, 22285103380554205462050, 22290086149728171143690, 22291082509003419985870, 22294082826844504510930,
  22296073200076289841650, 22303073200076289841650, 22307083795822921901860, 22312067790478180933770, 22313133606951470201200,
  22314146599781311503800, 22317105768068695264060, 22320060275533042810540, 22323087093355785626530, 22330074753489784330664,
  22331128141514406520500, 22334102252009310909700, 22336116477165556451790, 22338101096161816572840, 22343086102446759184230,
  22346109065601558988730, 22350108027633622172300, 22351098450874141802200, 22352102173268746600650, 22353113765637851446100,
  22359089947055112560560, 22362094800689956526460, 22363108098305294403230, 22364150654432392585460, 22365099385074894661300,
  22367130505402187162800, 22368120697109657045530, 22369092483320792953410, 22372094951921572268670, 22374082487073586635770,
  22376150654432392585460, 22378110312026011061500, 22383128682186619223260, 22387131195330902032320, 22391123246032153333440,
  22395134560053268244440, 22402097596538578718080, 22404117332387290833410, 22406141491525073843900, 22411087720239604120640,
  22418118267647870941650, 22419146599781311503800, 22426146599781311503800, 22427128141514406520500, 22432129253770757622740,
  22434116477165556451790, 22435106526449459179100, 22436157585904198184910, 22438131195330902032320, 22441105881064247803390,
  22443115390827146423830, 22445138126802707631780, 22446125004938817970100, 22466132736837700304910, 22467082597206858415600,
  22475109383088542134530, 22478062538654873308540, 22484086853207023587800, 22492136791488781386550, 22495095459843240669710,
  22496107749837981101550, 22497138126802707631780, 22509157585904198184910, 22519093835655999903940, 22521081378853329802290,
  22522068990849352993570, 22528129860016975787100, 22530087757276683495480, 22531157585904198184910, 22533094800689956526460,
  22534129860016975787100, 22535157585904198184910, 22538105881064247803390, 22545136791488781386550, 22549131936410623569550,
  22561097646289925119220, 22564125397145949502900, 22570092218988222271850, 22575105221484569885400, 22576077098021362842910,
  22577085884708763688630, 22580074753489784330664, 22581126230962038893410, 22602089947055112560560, 22604100448576143091210,
  22605157585904198184910, 22609097547033527119510, 22612079862588446488770, 22615096695455443716440, 22616097571755418573410,
  22618133606951470201200, 22622076697216306565000, 22635102821268678869800, 22636150654432392585460, 22645094670212802601700,
  22649136791488781386550, 22654135613658424822710, 22659082016398478055910, 22661124263859096432870, 22665126230962038893410]

def emitM2 : List Nat := [
  22666115390827146423830, 22675094432324182961550, 22681106771860548340280, 22684120697109657045530, 22686086181373767173320,
  22687134560053268244440, 22696095910739289301490, 22697119519279300481710, 22702131936410623569550, 22707130505402187162800,
  22718131195330902032320, 22721091793392078083900, 22727108098305294403230, 22737124263859096432870, 22739087528014005649870,
  22741146599781311503800, 22744118267647870941650, 22746141491525073843900, 22750098450874141802200, 22751117332387290833410,
  22754150654432392585460, 22756106526449459179100, 22761099385074894661300, 22763068652922756005750, 22764150654432392585460,
  22766088874991252079450, 22767088874991252079450, 22768072843047294135290, 22771104020041451464780, 22774128141514406520500,
  22777139668309505904350, 22778128141514406520500, 22781082775982569489660, 22788077813084330633400, 22791080497308187713160,
  22797076553986675327040, 22799070347083151600040, 22805096449082399862600, 22806070378035363327590, 22809136791488781386550,
  22810057451728079101665, 22812088203059358015300, 22815129253770757622740, 22816129253770757622740, 22818079699643541934590,
  22821080019670852796330, 22823038459362685920344, 22825059276735601171975, 22826061189382132598630, 22827070614117314058470,
  22829113042431235649840, 22830061978749060521030, 22831150654432392585460, 22833083120053206607650, 22836065617406380248070,
  22839092831577031144000, 22840108313367346612870, 22841110951513257064230, 22842089752652192145310, 22846110951513257064230,
  22850127140679820950680, 22852103833120121343260, 22855080761079732839850, 22856078222877266165310, 22857095479903427938380,
  22859088448530691588050, 22862102134129753389280, 22863093160502533502920, 22864127140679820950680, 22865099385074894661300,
  22868096165530142311330, 22869099778469040261620, 22870094838283985765520, 22871111736229411479190, 22872116642458575963900,
  22874125805365894705460, 22880138126802707631780, 22882114278570795321600, 22885084242610695179540, 22887084242610695179540,
  22890089752652192145310, 22893157585904198184910, 22894088448530691588050, 22899079567900179095180, 22900099325903124380410,
  22902093767744024123920, 22904107479551257222350, 22908136791488781386550, 22909076124609097930850, 22914063993129350679370,
  22915120209208015351230, 22916098263452323704800, 22918092335607619750280, 22919097303118995877930, 22920085529552434081260,
  22925108757884972321200, 22930131936410623569550, 22934119744007859002300, 22935157585904198184910, 22936136791488781386550,
  22937092003926170062210, 22941092335607619750280, 22942116642458575963900, 22949121750714813623800, 22953157585904198184910,
  22958104703233891239550, 22959157585904198184910, 22962150654432392585460, 22969096037323258020720, 22971100614969333130850,
  22982078888065172883440, 22986102947586147928810, 22987077393066269016980, 22989095994950313265580, 22992091641769600687120,
  22993083814567069845370, 22994150654432392585460, 22995099747652374887540, 22996048982461736615460, 22999095994950313265580,
  23002112152956375484860, 23004108833930966173400, 23005109879057953528250, 23011115390827146423830, 23013100155872320090080,
  23014107479551257222350, 23016093337213959131020, 23019136791488781386550, 23020114411023062821800, 23029135613658424822710,
  23033136791488781386550, 23035111141995206771180, 23039100350053178661100, 23041080096990825629590, 23043094894941361122300,
  23044128141514406520500, 23045109794669267069600, 23047101273786379971260, 23048131195330902032320, 23049119744007859002300,
  23052132736837700304910, 23057150654432392585460, 23059119973903041249270, 23064085544411277825510, 23067132736837700304910,
  23068097448752637756880, 23071096208633657322570, 23072109710986770364440, 23075135613658424822710, 23077116477165556451790,
  23081134560053268244440, 23089132736837700304910, 23090138126802707631780, 23092120950287736888440, 23100150654432392585460,
  23104128141514406520500, 23105128141514406520500, 23110082952273742984700, 23113086536249715486480, 23125115997073364588190,
  23130093385954916713490, 23138123573930381563350, 23142097303118995877930, 23143108098305294403230, 23146143722960586986000,
  23149109794669267069600, 23156113518711725542370, 23157113397498120218930, 23158119973903041249270, 23159089451458203075940,
  23186091425252346856730, 23194105768068695264060, 23195096582714677984270, 23207138126802707631780, 23210157585904198184910,
  23219098669462079927200, 23224146599781311503800, 23228157585904198184910, 23229085529552434081260, 23233118073467012370640,
  23234110857615853565840, 23241121210042600921050, 23244139668309505904350, 23250157585904198184910, 23252136791488781386550,
  23254124263859096432870, 23258150654432392585460, 23265157585904198184910, 23267116810529759127700, 23270118267647870941650,
  23273106959953867915230, 23281150654432392585460, 23285157585904198184910, 23291120950287736888440, 23305123246032153333440,
  23307113397498120218930, 23308101273786379971260, 23318157585904198184910, 23321150654432392585460, 23329157585904198184910,
  23332115390827146423830, 23338136791488781386550, 23344113518711725542370, 23348136791488781386550, 23351115390827146423830,
  23352119973903041249270, 23359136791488781386550, 23372131195330902032320, 23376056198726548330060, 23380095241796941001200,
  23381099474494268417900, 23383074003929598927110, 23384080279763537547500, 23385079273702052141980, 23386117332387290833410,
  23387157585904198184910, 23388097696290029286260, 23389080793389938654330, 23391090419956462975130, 23394122620828583520100,
  23395085769984752066260, 23396095641850287138190, 23398048787523789805440, 23401077200783988416770, 23403079273702052141980,
  23408126230962038893410, 23416048787523789805440, 23418122032423583290760, 23421118667701217078640, 23425070022228600155150,
  23427143722960586986000, 23429101902459160573940, 23431083137571459262980, 23432077609272927983906, 23433047374562202172710,
  23435093750837849344850, 23436097018064065898650, 23439073496508138425080, 23443141491525073843900, 23445117696063732542160,
  23447065701889553610610, 23448080537784968858970, 23449093904032334679980, 23450067217704486831940, 23451100784178108014220,
  23452084067905507607140, 23453071583436732669680, 23454066931602196381160, 23456108386094939903650, 23457088771791161759560,
  23458091438648196147300, 23459084151641906711240, 23460101940700124957960, 23461133606951470201200, 23462138126802707631780,
  23466079866801633827270, 23467082917909447998890, 23470082917909447998890, 23472106110959430050380, 23475090727294727501310,
  23476116314560347733980, 23477103559130379462100, 23478050571903481473370, 23480104907322607551630, 23481070091750131548400,
  23485101713417614182400, 23486090063200436767480, 23487098001657267887090, 23490117332387290833410, 23492091345251920185970,
  23493098808546380388510, 23494076914413799083850, 23495122322298952023290, 23500076159452338756960, 23504109302766825161900,
  23506089244816810046520, 23507122620828583520100, 23515136791488781386550, 23517118873894089106000, 23519058404605905454930,
  23521094633244183788450, 23522118873894089106000, 23525108241164866878000, 23526066931602196381160, 23527070022228600155150,
  23528098892935066847160, 23529088771791161759560, 23531109383088542134530, 23532101713417614182400, 23536131936410623569550,
  23541108386094939903650, 23542071583436732669680, 23544096058577251143870, 23545074167034503023030, 23546094450423735413960,
  23547092678668853159840, 23548063524365842000545, 23551082775982569489660, 23553085143629042151400, 23556074625427770537900,
  23558083530947566190190, 23559083530947566190190, 23560086904184194304490, 23561105824406872446610, 23562091835145792188700,
  23563092678668853159840, 23565074167034503023030, 23566063524365842000545, 23567050951852830885650, 23569068402079151568770,
  23572053809204812152105, 23573135613658424822710, 23574101638790402166510, 23576094670212802601700, 23578084023105432677420,
  23581092785458578918370, 23588100956299396825440, 23591105221484569885400, 23601079576083485607505, 23604150654432392585460,
  23607150654432392585460, 23608105274818029639030, 23609118667701217078640, 23610111238614315888550, 23611129860016975787100,
  23612063324937149621160, 23613084730838712957050, 23614086810923662492580, 23615090228104055761640, 23616094324409466633910,
  23617106587239919942910, 23618086676805977385070, 23621070192141381831680, 23622088408848099831850, 23624101273786379971260,
  23625150654432392585460, 23626088408848099831850, 23627102173268746600650, 23629105274818029639030, 23630143722960586986000,
  23631110672425375893480, 23633104355804406800830, 23637073924527033222090, 23644150654432392585460, 23646086133942848213200,
  23648101381895541013410, 23649114681309786701000, 23650114681309786701000, 23652086676805977385070, 23653099035184976160640,
  23660086133942848213200, 23663110672425375893480, 23665057377643748651295, 23673120209208015351230, 23674141491525073843900,
  23679121750714813623800, 23681105656335689282800, 23682126230962038893410, 23692115100951777691300, 23696118267647870941650,
  23697122928545170187640, 23700109383088542134530, 23702126230962038893410, 23703080452525309466200, 23705134560053268244440,
  23706096672805377407920, 23707083524870385814760, 23713078098519650048800, 23714139668309505904350, 23721087925662327123780,
  23723127628581462644990, 23724136791488781386550, 23725091975597539219170, 23729122322298952023290, 23731082476126678043950,
  23735124263859096432870, 23736084507176390547850, 23745141491525073843900, 23755135613658424822710, 23762122032423583290760,
  23769125805365894705460, 23777087136853026891200, 23780139668309505904350, 23781122322298952023290, 23782128682186619223260,
  23784143722960586986000, 23786105491042669770700, 23789114147849979648070, 23792083032919341352000, 23798083524870385814760,
  23803102905302786833600, 23805087136853026891200, 23811125004938817970100, 23815079214307698168160, 23821125004938817970100,
  23822090815069585713550, 23828123573930381563350, 23830102451616736535080, 23831080452525309466200, 23833093353434562849700,
  23835157585904198184910, 23839150654432392585460, 23842122322298952023290, 23849102212561527999540, 23853138126802707631780,
  23854123912945898320160, 23860146599781311503800, 23869111736229411479190, 23879157585904198184910, 23883135613658424822710,
  23884122620828583520100, 23888096672805377407920, 23896134560053268244440, 23899134560053268244440, 23913108241164866878000,
  23916136791488781386550, 23940138126802707631780, 23943126230962038893410, 23948136791488781386550, 23961119519279300481710,
  23968139668309505904350, 23988134560053268244440, 23991146599781311503800, 23992134560053268244440, 23994091975597539219170,
  23996121750714813623800, 24013096855458857180850, 24018128682186619223260, 24029073982849839393980, 24030063957865047158390,
  24033109144033333599000, 24034105545837327416960, 24037060533708959060050, 24038091737990274327750, 24039085716893994068590,
  24040093852706302414770, 24041133606951470201200, 24043117882985062663690, 24046092483320792953410, 24049092320955602477000,
  24050091765652809256650, 24051122620828583520100, 24052068866641687008620, 24055112699540500863510, 24059136791488781386550,
  24061127628581462644990, 24062102173268746600650, 24065085186578284980210, 24066071051196101097050, 24067065816000275238620,
  24069098210542147360640, 24070099179487624450930, 24072070752050535381820, 24076075142563719623960, 24080141491525073843900,
  24085093018207642463280, 24086115842031499228530, 24088097375670704689640, 24089125805365894705460, 24090132736837700304910,
  24091122322298952023290, 24092111434699029772300, 24093079795417748929340, 24101098210542147360640, 24102085709332557035350,
  24103150654432392585460, 24107070752050535381820, 24109075935111610134230, 24110087473764324681230, 24115141491525073843900,
  24118085709332557035350, 24119113042431235649840, 24120055081500302418664, 24124120697109657045530, 24125104907322607551630,
  24128150654432392585460, 24132146599781311503800, 24133090603223657030780, 24140143722960586986000, 24149090051525012207100,
  24151120697109657045530, 24159111434699029772300, 24161125805365894705460, 24162138126802707631780, 24163085186578284980210,
  24171087473764324681230, 24178075103229723715910, 24179059282113391030010, 24180064370665188816930, 24182093566732230913040,
  24184098949592442203930, 24185075103229723715910, 24186114018815931288980, 24187104020041451464780, 24188094235361683204320,
  24189108533156413800600, 24190069959443901682090, 24191063959582375000490, 24196087982426907171830, 24198071625860479779630]

def emitM3 : List Nat := [
  24199109964164850207350, 24202107413105830035660, 24207089021284352239040, 24208120697109657045530, 24211091265886424228610,
  24212072060300845649620, 24213088700179602531270, 24215107087344125689530, 24217112699540500863510, 24218105824406872446610,
  24220081131927203898580, 24222105656335689282800, 24223095340319905431300, 24229150654432392585460, 24230069942246992886820,
  24231089786685123462390, 24235091265886424228610, 24237074852538213140045, 24245121476725071742650, 24246131195330902032320,
  24247077426026087912540, 24248096582714677984270, 24254123573930381563350, 24257139668309505904350, 24258105010950477907100,
  24264116810529759127700, 24265099747652374887540, 24275125397145949502900, 24278117155391519839400, 24285128141514406520500,
  24287112699540500863510, 24288108098305294403230, 24290095340319905431300, 24291063959582375000490, 24297141491525073843900,
  24298141491525073843900, 24300120697109657045530, 24307117155391519839400, 24310079482377360942005, 24311080381287252187690,
  24314058596632500386940, 24316157585904198184910, 24319123573930381563350, 24320067508559479389700, 24322084924616402620400,
  24323100448576143091210, 24324101713417614182400, 24328123246032153333440, 24330143722960586986000, 24331115538978004275240,
  24335082866583415733680, 24339107818566773979170, 24341083783346313920300, 24343093160502533502920, 24344098053470855307050,
  24347133606951470201200, 24351093784678829187250, 24352081840319356160100, 24357081359264684948960, 24358096016114342329360,
  24359125805365894705460, 24361105382345947401660, 24365157585904198184910, 24367096855458857180850, 24369100581468464278050,
  24373081840319356160100, 24375083237425446064900, 24377087058693705861680, 24378083237425446064900, 24380099902694240247190,
  24392087058693705861680, 24396081359264684948960, 24398096855458857180850, 24400135613658424822710, 24402082378140047556930,
  24403067816964921524150, 24405093583329745096700, 24407119084428181084320, 24413106709940845861070, 24418078926350058849890,
  24420112926823011639070, 24421135613658424822710, 24422084042280893970140, 24425078535175703198250, 24426111634705696839000,
  24428098532285717639200, 24429111141995206771180, 24432115100951777691300, 24433077823384760728676, 24441105115663476580040,
  24443094781945808582950, 24444087701772378189000, 24448090777357410282760, 24449087509898058666380, 24452101418193221519200,
  24453080166225199978050, 24455131195330902032320, 24456110672425375893480, 24459074396042944264310, 24460076502681296452510,
  24464105063169917718610, 24465101418193221519200, 24466089718734692134100, 24469146599781311503800, 24471062925231466320780,
  24473150654432392585460, 24478084581176055506920, 24480146599781311503800, 24481089820834274463070, 24490098423883572110550,
  24493126230962038893410, 24494083959451494006650, 24501087509898058666380, 24503061440524093011090, 24505094781945808582950,
  24509086316996109196820, 24515063013118479623810, 24517076329594313414260, 24518091947348932863630, 24524095320537505310250,
  24525100682309654944300, 24529108607506198675790, 24530122032423583290760, 24534135613658424822710, 24535062190182457337320,
  24536091655458856760530, 24537091279070341761180, 24541150654432392585460, 24544076220721677031990, 24545104258716265531210,
  24548150654432392585460, 24551095202657947789820, 24555095399903001267620, 24561150654432392585460, 24565071983377389418060,
  24571127628581462644990, 24573092306325021959400, 24574123573930381563350, 24575127140679820950680, 24576082923628636030100,
  24577087455746301788600, 24581146599781311503800, 24589136791488781386550, 24590093566732230913040, 24591132736837700304910,
  24594094633244183788450, 24596139668309505904350, 24597094633244183788450, 24598100382786432110790, 24604102291613323070670,
  24605063048333916885420, 24608122620828583520100, 24609099006572653350310, 24613084980678217286380, 24615072945870569163720,
  24616104258716265531210, 24617128141514406520500, 24618096317212357043050, 24623143722960586986000, 24635073434299539674050,
  24639135613658424822710, 24642146599781311503800, 24643109627998742217500, 24646086998322672998260, 24651096251923768218410,
  24653108910559693629080, 24656097065012508940730, 24658086998322672998260, 24661124263859096432870, 24666157585904198184910,
  24674102492020831905130, 24675135613658424822710, 24676116477165556451790, 24677103380554205462050, 24680108757884972321200,
  24681071163517394280290, 24682134560053268244440, 24684129253770757622740, 24685088280956538668640, 24687070592423521653975,
  24688100614969333130850, 24691117512572345860190, 24694090028214978342350, 24697135613658424822710, 24698110400915485233960,
  24701150654432392585460, 24703157585904198184910, 24708086853207023587800, 24709096273639303353490, 24713119744007859002300,
  24716146599781311503800, 24724107818566773979170, 24726119299490233293960, 24730105824406872446610, 24735094342314574371800,
  24736101713417614182400, 24739101025986089986390, 24742096273639303353490, 24744141491525073843900, 24748103161727092966980,
  24751126675479664601750, 24753131936410623569550, 24754107087344125689530, 24757146599781311503800, 24758106834166045846640,
  24763121210042600921050, 24764106771860548340280, 24773077947824665870400, 24778083573591554054760, 24785099092656398716300,
  24789105995351206039620, 24794117696063732542160, 24796101418193221519200, 24799099474494268417900, 24800075841692671719940,
  24801090028214978342350, 24807111238614315888550, 24808121750714813623800, 24809120697109657045530, 24811110672425375893480,
  24813116981474092720710, 24815094147099856921600, 24816146599781311503800, 24818150654432392585460, 24819070682846106936090,
  24820110951513257064230, 24822100155872320090080, 24825116642458575963900, 24826106771860548340280, 24832143722960586986000,
  24833113159391633281740, 24840097950110762000440, 24841128141514406520500, 24845135613658424822710, 24846119973903041249270,
  24847067771601940508550, 24858126675479664601750, 24859071806784933675470, 24863075906710568606750, 24867119299490233293960,
  24868097571755418573410, 24871102017623581189540, 24875146599781311503800, 24887110400915485233960, 24894123573930381563350,
  24895082804207256587060, 24904095459843240669710, 24907087455746301788600, 24908091891089994041940, 24910094378221255679090,
  24913116981474092720710, 24917097746541391313000, 24920121750714813623800, 24922116981474092720710, 24924157585904198184910,
  24930104020041451464780, 24931094147099856921600, 24935078594369364753930, 24936094024827591225990, 24942108607506198675790,
  24944109710986770364440, 24950071625860479779630, 24951127140679820950680, 24962095202657947789820, 24970110672425375893480,
  24974124263859096432870, 24976102291613323070670, 24977116314560347733980, 24980131195330902032320, 24996097571755418573410,
  24999143722960586986000, 25000129860016975787100, 25003126675479664601750, 25010079866801633827270, 25014091947348932863630,
  25026108386094939903650, 25031117512572345860190, 25032108241164866878000, 25033072060300845649620, 25035114018815931288980,
  25036135613658424822710, 25042118267647870941650, 25062157585904198184910, 25064135613658424822710, 25074120697109657045530,
  25077119299490233293960, 25078118267647870941650, 25079082923628636030100, 25080103161727092966980, 25084111238614315888550,
  25085157585904198184910, 25086116981474092720710, 25087104453844407767030, 25088096251923768218410, 25096091385172132881340,
  25098111534202338304000, 25100103118530481521800, 25101106587239919942910, 25102111434699029772300, 25103090827671981836420,
  25104061581016438460360, 25105085280272664091990, 25106107613781460543760, 25110095300794162273070, 25112062105642621554330,
  25114111634705696839000, 25115116810529759127700, 25119118667701217078640, 25121134560053268244440, 25129143722960586986000,
  25130096230255287367520, 25132143722960586986000, 25134132736837700304910, 25136062105642621554330, 25138090827671981836420,
  25139139668309505904350, 25140095560549026305670, 25142085058280017653040, 25143085058280017653040, 25151089763983638116990,
  25152063772422509486260, 25153123246032153333440, 25159128682186619223260, 25160117696063732542160, 25163073368074132069120,
  25165082211603832319820, 25166090967356792731790, 25169102947586147928810, 25170126230962038893410, 25171084268754500920250,
  25176077412829121299090, 25179157585904198184910, 25187116810529759127700, 25191093835655999903940, 25193107887771202424900,
  25194157585904198184910, 25195101061012395498400, 25196085992985150209260, 25197111046300696609670, 25198115538978004275240,
  25199118465674143903450, 25200106771860548340280, 25206103292447908640490, 25209095320537505310250, 25212112587807494882260,
  25214116154556934269570, 25215067965832102301770, 25216065580983838971220, 25220113397498120218930, 25226088488371381736800,
  25233122620828583520100, 25234111634705696839000, 25235114411023062821800, 25237091005793739477420, 25238109879057953528250,
  25239092248015818851470, 25240089775327938823110, 25242093616607646023450, 25248150654432392585460, 25249150654432392585460,
  25250109964164850207350, 25252070420546872739950, 25253085884708763688630, 25259113765637851446100, 25260110223919714239940,
  25265107887771202424900, 25269119973903041249270, 25273108386094939903650, 25276107957457895585840, 25277117332387290833410,
  25279157585904198184910, 25282107087344125689530, 25285103740953570294020, 25286118465674143903450, 25287097041510735491200,
  25288125805365894705460, 25289057209216858163430, 25292122620828583520100, 25293106346264404152320, 25296120209208015351230,
  25298125004938817970100, 25299099237796827558850, 25300094217646886720500, 25302105436546622095050, 25303150654432392585460,
  25304107023446144701830, 25305141491525073843900, 25307087822423493707420, 25308093049654209257980, 25311103469443679634500,
  25314120697109657045530, 25315116981474092720710, 25317093955623162780260, 25318131195330902032320, 25319143722960586986000,
  25320109710986770364440, 25321091148006866708190, 25324112926823011639070, 25327124627535538141620, 25329101979087888029620,
  25331104067322863424230, 25332117882985062663690, 25335134560053268244440, 25340109794669267069600, 25342120450183531141820,
  25343077485628913367570, 25345077495597347487600, 25346106648402190117280, 25351082730988117877370, 25352123573930381563350,
  25353119084428181084320, 25361106346264404152320, 25366132736837700304910, 25370143722960586986000, 25371127140679820950680,
  25373128682186619223260, 25374129860016975787100, 25376119973903041249270, 25377126230962038893410, 25379123246032153333440,
  25380122032423583290760, 25381074788932859408630, 25384113641412651460510, 25386138126802707631780, 25391072468118611037520,
  25401157585904198184910, 25402099840388742740820, 25405109627998742217500, 25410157585904198184910, 25414143722960586986000,
  25417108169479972091850, 25419143722960586986000, 25421128682186619223260, 25423117155391519839400, 25424110490602185061560,
  25429117155391519839400, 25438111942422283506550, 25439102614221945252880, 25442087428779993312610, 25443123246032153333440,
  25447097497772343758960, 25449157585904198184910, 25451157585904198184910, 25453123912945898320160, 25454072945870569163720,
  25462150654432392585460, 25463097797046549173690, 25466101454623134304200, 25467150654432392585460, 25474134560053268244440,
  25475101061012395498400, 25476150654432392585460, 25480103740953570294020, 25481119744007859002300, 25484091083113712310680,
  25488146599781311503800, 25490098477937757779640, 25494132736837700304910, 25496112477309133016410, 25497123246032153333440,
  25499106648402190117280, 25504112926823011639070, 25505089528678664015050, 25506102017623581189540, 25507131936410623569550,
  25509079547471162797180, 25511091371847680543560, 25512095479903427938380, 25513108833930966173400, 25514110857615853565840,
  25516141491525073843900, 25520141491525073843900, 25524157585904198184910, 25527124627535538141620, 25528131195330902032320,
  25536116981474092720710, 25542157585904198184910, 25545122928545170187640, 25551099385074894661300, 25552083032919341352000,
  25554112259909266652350, 25558109223085128670120, 25562085992985150209260, 25563087428779993312610, 25569131936410623569550,
  25581136791488781386550, 25582074788932859408630, 25588092800807776099210, 25597110764591926942710, 25605122928545170187640,
  25613102614221945252880, 25615115997073364588190, 25620132736837700304910, 25622080144537921905000, 25623123246032153333440,
  25628132736837700304910, 25630143722960586986000, 25632157585904198184910, 25633131195330902032320, 25642150654432392585460]

def emitM4 : List Nat := [
  25644128141514406520500, 25645108607506198675790, 25654109964164850207350, 25658102947586147928810, 25661157585904198184910,
  25668112477309133016410, 25670098864726303430750, 25671080144537921905000, 25674109545693750852330, 25681157585904198184910,
  25688136791488781386550, 25703150654432392585460, 25705080811899893036830, 25711143722960586986000, 25715150654432392585460,
  25720098001657267887090, 25721143722960586986000, 25732139668309505904350, 25733157585904198184910, 25735115244839152212300,
  25736111942422283506550, 25744116314560347733980, 25745116314560347733980, 25746095380002497187500, 25747119973903041249270,
  25758102737934863278360, 25763131195330902032320, 25765109710986770364440, 25771093616607646023450, 25773089947055112560560,
  25774141491525073843900, 25776138126802707631780, 25778102947586147928810, 25787129860016975787100, 25788110581100540260730,
  25790128682186619223260, 25792157585904198184910, 25793093955623162780260, 25794131936410623569550, 25799091148006866708190,
  25802072581365524065510, 25803126230962038893410, 25805098027530503536600, 25806118267647870941650, 25810108169479972091850,
  25812103740953570294020, 25818072945870569163720, 25822115100951777691300, 25824122032423583290760, 25830102779514964764990,
  25836103469443679634500, 25840143722960586986000, 25842124627535538141620, 25844107887771202424900, 25850098864726303430750,
  25851115100951777691300, 25854106771860548340280, 25856110764591926942710, 25871120697109657045530, 25874113159391633281740,
  25876131195330902032320, 25878139668309505904350, 25880105656335689282800, 25884102947586147928810, 25885112477309133016410,
  25890113159391633281740, 25891127140679820950680, 25892109545693750852330, 25898122928545170187640, 25900110764591926942710,
  25903086929770562207730, 25910077360214728302354, 25912113397498120218930, 25913086276915895221440, 25915095320537505310250,
  25918062627703989457270, 25919046692583926713810, 25925099871492966884750, 25928078635269217269180, 25929157585904198184910,
  25932090004959153907600, 25935079333451283867165, 25937084294966835718980, 25942123246032153333440, 25943084703460187983670,
  25944106648402190117280, 25945064778847851817440, 25947131936410623569550, 25949146599781311503800, 25950128682186619223260,
  25954094951921572268670, 25955091863078771244830, 25958089820834274463070, 25964082190315905174600, 25968068692820999756430,
  25970115244839152212300, 25972088979267483702030, 25973090004959153907600, 25975114278570795321600, 25976068692820999756430,
  25986131936410623569550, 25991054234503294205500, 25995111942422283506550, 25996095360141517471210, 26000090752294740522160,
  26001102451616736535080, 26003136791488781386550, 26005136791488781386550, 26007070436945695699960, 26009085302019682448870,
  26012105768068695264060, 26015114018815931288980, 26017110050002287121260, 26020107546441138730300, 26021115842031499228530,
  26023110312026011061500, 26025111141995206771180, 26027146599781311503800, 26028111141995206771180, 26029086536249715486480,
  26031054784831492880350, 26032062434159165729610, 26039086536249715486480, 26041050800531711027830, 26044127628581462644990,
  26045076989980909309460, 26049094182311160907400, 26051127140679820950680, 26052143722960586986000, 26053091385172132881340,
  26059085382165830945420, 26060128682186619223260, 26062133606951470201200, 26063065034679050704150, 26070120697109657045530,
  26071088782063376324860, 26080059030858573045140, 26082100350053178661100, 26085064449716983888060, 26086089528678664015050,
  26087102990049056743320, 26088115390827146423830, 26089095621462920239700, 26092131195330902032320, 26093084035884987132330,
  26094157585904198184910, 26096128141514406520500, 26097109627998742217500, 26102063425375382577770, 26103102696526936618040,
  26106097671258727105080, 26107128141514406520500, 26108135613658424822710, 26112134560053268244440, 26114102821268678869800,
  26118099625326690531180, 26119157585904198184910, 26121157585904198184910, 26122104503227224172850, 26124065058612813505210,
  26126062138513881680035, 26127096901648315743800, 26131073943153348269660, 26132106771860548340280, 26133108757884972321200,
  26137136791488781386550, 26143075108465325929740, 26144098184191670980590, 26149065314912640273530, 26151113397498120218930,
  26152139668309505904350, 26157085739612671011760, 26159076691079454577370, 26161106959953867915230, 26166133606951470201200,
  26170157585904198184910, 26174085448221116998500, 26177134560053268244440, 26178063425375382577770, 26179091358540958686500,
  26181157585904198184910, 26185095028403780651230, 26187095028403780651230, 26188120697109657045530, 26191115997073364588190,
  26194111238614315888550, 26195061121264187803510, 26196100252491429207440, 26197105063169917718610, 26198098864726303430750,
  26199120209208015351230, 26202100818366175502100, 26207099625326690531180, 26212104114828891010220, 26214134560053268244440,
  26216088689991114640240, 26222076817643885196825, 26223071370372130780110, 26224105600933885526640, 26228102291613323070670,
  26230081743256014294320, 26234075027619925366600, 26238146599781311503800, 26242146599781311503800, 26244135613658424822710,
  26247113891425673514690, 26248105063169917718610, 26249098864726303430750, 26256136791488781386550, 26257110050002287121260,
  26262089418545392235220, 26263099840388742740820, 26274113641412651460510, 26280129860016975787100, 26283146599781311503800,
  26286108098305294403230, 26292094707318596567060, 26308100252491429207440, 26311136791488781386550, 26313061121264187803510,
  26329094951921572268670, 26332118073467012370640, 26333157585904198184910, 26336102696526936618040, 26342116642458575963900,
  26348111238614315888550, 26352115390827146423830, 26354078283842131338080, 26355126675479664601750, 26356091044378996352720,
  26360062112065458528030, 26361107087344125689530, 26364084106465966698030, 26366104503227224172850, 26367118465674143903450,
  26368112047135282179500, 26371050358518099266910, 26376072937437087744620, 26377059715243302996140, 26379081295865301655330,
  26381085907812355020460, 26384146599781311503800, 26388108682412915967370, 26389125397145949502900, 26391084534022044254530,
  26395084171065674553300, 26397070376403908882335, 26399075392643259123995, 26406108910559693629080, 26407109964164850207350,
  26408068837227841304380, 26410080275372758113640, 26411089298783481768070, 26412059341460746228160, 26413117155391519839400,
  26415066292432070518394, 26417093517104337491760, 26420105768068695264060, 26421109627998742217500, 26426065129794337603890,
  26429128141514406520500, 26432095765055131018590, 26434090590900796568120, 26435075019830751923330, 26438099625326690531180,
  26441091765652809256650, 26446084758292402128980, 26447091187145859919540, 26448080028232497154920, 26449082206277600502830,
  26451143722960586986000, 26454102411375233537840, 26460091134994503128470, 26462121750714813623800, 26463100382786432110790,
  26464150654432392585460, 26465078736374740586770, 26469060419747611751350, 26472087738740997002260, 26474150654432392585460,
  26477098532285717639200, 26479099625326690531180, 26480087250839355307940, 26481063985377746139810, 26482119084428181084320,
  26483134560053268244440, 26485122928545170187640, 26487136791488781386550, 26492130505402187162800, 26494078542555777333956,
  26495087757276683495480, 26497076020801937385250, 26500088498356405032700, 26505108027633622172300, 26507134560053268244440,
  26512086357237612194080, 26517112587807494882260, 26519062716036450107910, 26522108682412915967370, 26524077663217765477460,
  26525090311586949676350, 26530091318726705694660, 26531131195330902032320, 26535157585904198184910, 26538092003926170062210,
  26539115100951777691300, 26541132736837700304910, 26543113765637851446100, 26550080919002197384040, 26551141491525073843900,
  26552150654432392585460, 26563157585904198184910, 26564118267647870941650, 26575082079291767131540, 26576113891425673514690,
  26577150654432392585460, 26578157585904198184910, 26579081477376294232400, 26580097671258727105080, 26584125397145949502900,
  26586131936410623569550, 26588103879523916908280, 26589157585904198184910, 26592135613658424822710, 26594150654432392585460,
  26597084420422426355140, 26604131936410623569550, 26607094876019879601920, 26608150654432392585460, 26609094182311160907400,
  26611089730027748105620, 26612110490602185061560, 26613098808546380388510, 26621157585904198184910, 26623126230962038893410,
  26624150654432392585460, 26628129860016975787100, 26629098808546380388510, 26631082329504447769550, 26632132736837700304910,
  26633115390827146423830, 26635107413105830035660, 26638122032423583290760, 26639106896862175982600, 26641073975833115915820,
  26643114545253266143220, 26646092394431318780960, 26647112259909266652350, 26657085129353522239550, 26665107413105830035660,
  26666121210042600921050, 26679079230111731485255, 26680088339780237699300, 26681075555601781036310, 26684066626513081522840,
  26685122928545170187640, 26686150654432392585460, 26688127628581462644990, 26690076159452338756960, 26691080641976171890700,
  26693157585904198184910, 26694118465674143903450, 26696090407857247948000, 26697157585904198184910, 26700105768068695264060,
  26704104652855950939990, 26705087757276683495480, 26707095360141517471210, 26708128141514406520500, 26709143722960586986000,
  26720136791488781386550, 26722122322298952023290, 26723107216378174048610, 26724150654432392585460, 26725083172700301008740,
  26726115244839152212300, 26727120209208015351230, 26728128682186619223260, 26729146599781311503800, 26742138126802707631780,
  26743157585904198184910, 26751099625326690531180, 26753090789912339741080, 26757081300727932434360, 26758110581100540260730,
  26771105768068695264060, 26772150654432392585460, 26775105382345947401660, 26776157585904198184910, 26781078736374740586770,
  26783132736837700304910, 26786110050002287121260, 26790079699643541934590, 26791120450183531141820, 26792087500852377362100,
  26797115997073364588190, 26799102056308348968730, 26800082329504447769550, 26803128682186619223260, 26805138126802707631780,
  26816074138476654009450, 26818136791488781386550, 26820100448576143091210, 26825107281524984260560, 26827094651711409720090,
  26829108533156413800600, 26834098210542147360640, 26837116981474092720710, 26839131195330902032320, 26840127140679820950680,
  26842131936410623569550, 26847107413105830035660, 26848119973903041249270, 26851125805365894705460, 26855132736837700304910,
  26862076344398165118600, 26864157585904198184910, 26865105115663476580040, 26866092394431318780960, 26869108241164866878000,
  26874115538978004275240, 26881131195330902032320, 26885126675479664601750, 26891157585904198184910, 26893079433833576294020,
  26894092468450901737620, 26895136791488781386550, 26898093467721521085940, 26911146599781311503800, 26916157585904198184910,
  26928122322298952023290, 26937146599781311503800, 26941146599781311503800, 26943099237796827558850, 26946129860016975787100,
  26954087738740997002260, 26963115100951777691300, 26967138126802707631780, 26970081349484733069190, 26973125805365894705460,
  26974118465674143903450, 26976115689356777920660, 26979150654432392585460, 26982157585904198184910, 26984122322298952023290,
  26987134560053268244440, 26989057200039538607480, 26997076020801937385250, 26999121210042600921050, 27000139668309505904350,
  27001123912945898320160, 27004090517280832157440, 27010115100951777691300, 27012099006572653350310, 27014112259909266652350,
  27015157585904198184910, 27016112368018427694500, 27029116981474092720710, 27036103424900176140700, 27047157585904198184910,
  27048138126802707631780, 27051150654432392585460, 27053122928545170187640, 27054077847460438738030, 27060090916336273892830,
  27067133606951470201200, 27071150654432392585460, 27073157585904198184910, 27082130505402187162800, 27083088498356405032700,
  27084157585904198184910, 27085092003926170062210, 27088113159391633281740, 27091150654432392585460, 27097136791488781386550,
  27099134560053268244440, 27103115244839152212300, 27112131195330902032320, 27123128682186619223260, 27131129860016975787100,
  27133121750714813623800, 27135124263859096432870, 27137146599781311503800, 27138065494507684188270, 27146099965390370383140,
  27155090517280832157440, 27159150654432392585460, 27161082329504447769550, 27166091318726705694660, 27167112368018427694500,
  27169083266985030106910, 27171079230111731485255, 27176150654432392585460, 27178088001420265208360, 27185109879057953528250,
  27189141491525073843900, 27192105768068695264060, 27193073975833115915820, 27194115244839152212300, 27197133606951470201200]

def emitM5 : List Nat := [
  27198146599781311503800, 27204120697109657045530, 27211083172700301008740, 27216157585904198184910, 27225101238008166492420,
  27231065129794337603890, 27233103740953570294020, 27243088001420265208360, 27257131936410623569550, 27260138126802707631780,
  27264108533156413800600, 27273157585904198184910, 27280120450183531141820, 27284107216378174048610, 27292120209208015351230,
  27298074138476654009450, 27308104453844407767030, 27315115244839152212300, 27320135613658424822710, 27323134560053268244440,
  27331103879523916908280, 27347131936410623569550, 27354112368018427694500, 27355115390827146423830, 27357146599781311503800,
  27358138126802707631780, 27359122032423583290760, 27372157585904198184910, 27386136791488781386550, 27387109879057953528250,
  27396106896862175982600, 27402075019830751923330, 27407157585904198184910, 27410150654432392585460, 27414099006572653350310,
  27424129253770757622740, 27425069660408056411090, 27426089809438261833740, 27427090714818119519760, 27431093649996658678600,
  27442085694226813981680, 27449157585904198184910, 27450107281524984260560, 27453096627658573862650, 27454097279051595572280,
  27462117155391519839400, 27463094288695142957940, 27465157585904198184910, 27468093434934606468950, 27472093649996658678600,
  27489089809438261833740, 27490096605161376522500, 27491067094756963415300, 27492071746735963593450, 27493076933252109207580,
  27494067432921690456430, 27495104959002309136050, 27498106286917048954170, 27506105656335689282800, 27511083302572256276850,
  27512082378140047556930, 27513124263859096432870, 27515078176506574906990, 27519157585904198184910, 27521157585904198184910,
  27523114819243008024350, 27524132736837700304910, 27527136791488781386550, 27529127628581462644990, 27530093583329745096700,
  27531095621462920239700, 27533143722960586986000, 27542084321248059781680, 27544095621462920239700, 27553157585904198184910,
  27556136791488781386550, 27567157585904198184910, 27572150654432392585460, 27573096449082399862600, 27575110400915485233960,
  27578095765055131018590, 27580104020041451464780, 27583095641850287138190, 27584129860016975787100, 27585129860016975787100,
  27586108987780154568180, 27589094800689956526460, 27590150654432392585460, 27595129860016975787100, 27597084614994146580730,
  27599115538978004275240, 27602086341121573250670, 27603092175604206285870, 27604069825777006355740, 27605096971335008904730,
  27606121750714813623800, 27607135613658424822710, 27611080669335970079440, 27617139668309505904350, 27627097279051595572280,
  27631101131435221752530, 27645130505402187162800, 27653150654432392585460, 27656139668309505904350, 27663084717140080677900,
  27665038365863831702627, 27667131936410623569550, 27668067285736019735890, 27670150654432392585460, 27679106169268633158300,
  27682101864363876407250, 27683067285736019735890, 27687079034334139371460, 27688096251923768218410, 27691101864363876407250,
  27694116314560347733980, 27695100750106524798100, 27696108682412915967370, 27698136791488781386550, 27699136791488781386550,
  27700058785250372268550, 27704064923424159040115, 27705141491525073843900, 27709102134129753389280, 27712120697109657045530,
  27713111434699029772300, 27714078819519588430280, 27719093700290142728600, 27721053914002980855550, 27722141491525073843900,
  27728122322298952023290, 27733123573930381563350, 27735098949592442203930, 27739132736837700304910, 27740120950287736888440,
  27741077982667906696510, 27742132736837700304910, 27743059495783955052480, 27744095360141517471210, 27745092046570157926800,
  27748102779514964764990, 27753157585904198184910, 27754103740953570294020, 27757157585904198184910, 27760110581100540260730,
  27762135613658424822710, 27764119973903041249270, 27766107479551257222350, 27769103205111108952940, 27770077795940489643760,
  27773086405742153531570, 27774121750714813623800, 27777107281524984260560, 27778110764591926942710, 27779097183357085410760,
  27781093633288217030400, 27784090903621714010880, 27785090903621714010880, 27788133606951470201200, 27792100091974339102380,
  27794077389776254182230, 27795112699540500863510, 27801073940823160679020, 27803097621383311994700, 27807100887094968379710,
  27809077389776254182230, 27811143722960586986000, 27812157585904198184910, 27813109545693750852330, 27814141491525073843900,
  27815098586930662359990, 27818102291613323070670, 27819099325903124380410, 27821125397145949502900, 27825109383088542134530,
  27827071444520223457740, 27832096582714677984270, 27833078155177025405580, 27835049745222180422870, 27836122620828583520100,
  27837094112012101624800, 27838111336176065342200, 27839113159391633281740, 27841107216378174048610, 27844102947586147928810,
  27846135613658424822710, 27849085792824503144570, 27850093418581373061650, 27852096763715094420440, 27859114411023062821800,
  27860157585904198184910, 27861059644714043377270, 27863114147849979648070, 27867102532588838861280, 27870157585904198184910,
  27872127628581462644990, 27873108459355340824380, 27874077717455186571080, 27875114819243008024350, 27877097065012508940730,
  27880088251673940877760, 27882094432324182961550, 27886133606951470201200, 27887143722960586986000, 27888081008351486836250,
  27889124627535538141620, 27891097207194998963530, 27893102095143349232700, 27898133606951470201200, 27899118465674143903450,
  27900111141995206771180, 27901060558735677448470, 27902121750714813623800, 27905085641535687181560, 27908128682186619223260,
  27911157585904198184910, 27915071981461864079380, 27916146599781311503800, 27922112699540500863510, 27927107887771202424900,
  27929150654432392585460, 27931073710504366291240, 27934095479903427938380, 27941078732611805453000, 27943157585904198184910,
  27945102947586147928810, 27946073724174908406575, 27950129253770757622740, 27953116477165556451790, 27954075824800775811490,
  27955150654432392585460, 27957138126802707631780, 27958103205111108952940, 27963080596542200050420, 27964113042431235649840,
  27965125805365894705460, 27966093272593378850120, 27969069646749961868140, 27971118073467012370640, 27973102492020831905130,
  27974112047135282179500, 27975111046300696609670, 27976157585904198184910, 27978115390827146423830, 27979087482785525112600,
  27982062647266105393860, 27983134560053268244440, 27985111942422283506550, 27986105712046139777360, 27987102095143349232700,
  27988139668309505904350, 27993110490602185061560, 27994117696063732542160, 27995135613658424822710, 27996157585904198184910,
  28000127140679820950680, 28001157585904198184910, 28003150654432392585460, 28006088058617751936210, 28009078123267762379490,
  28010089074054923247470, 28014100750106524798100, 28015150654432392585460, 28020114959105427771750, 28023057226282828829890,
  28024123573930381563350, 28025118073467012370640, 28034096695455443716440, 28037094414257330712060, 28039121750714813623800,
  28040092986859654409560, 28041105600933885526640, 28044102947586147928810, 28046114819243008024350, 28051150654432392585460,
  28052127628581462644990, 28053108910559693629080, 28059103604277183007380, 28061126675479664601750, 28062138126802707631780,
  28063131936410623569550, 28065141491525073843900, 28067125004938817970100, 28068105274818029639030, 28070080144537921905000,
  28071120209208015351230, 28072111046300696609670, 28073124627535538141620, 28075150654432392585460, 28078139668309505904350,
  28079108169479972091850, 28082107957457895585840, 28085116154556934269570, 28092091919179900152500, 28096100682309654944300,
  28100133606951470201200, 28101119973903041249270, 28102121476725071742650, 28103111141995206771180, 28107092528063596902610,
  28108138126802707631780, 28113081383756492440360, 28114126675479664601750, 28118121210042600921050, 28120116154556934269570,
  28121133606951470201200, 28122094432324182961550, 28126098752680313302110, 28129087916232812045080, 28132134560053268244440,
  28133132736837700304910, 28134119084428181084320, 28136090578593102706800, 28138141491525073843900, 28139111942422283506550,
  28142099444598879934250, 28145085086648831005030, 28147103248684162642500, 28149090789912339741080, 28150138126802707631780,
  28151106466026314619470, 28153134560053268244440, 28154102492020831905130, 28155098505074816495600, 28156112152956375484860,
  28165068581777292414080, 28170090789912339741080, 28172132736837700304910, 28173122322298952023290, 28174150654432392585460,
  28176106771860548340280, 28180089429504297441580, 28183120697109657045530, 28185125004938817970100, 28186122322298952023290,
  28187107087344125689530, 28189094059610234989250, 28191157585904198184910, 28192104258716265531210, 28193093869785725866330,
  28195123573930381563350, 28196118873894089106000, 28197157585904198184910, 28198141491525073843900, 28201088320133865957650,
  28204087482785525112600, 28205103972982541090650, 28207083883597780114100, 28210143722960586986000, 28212131936410623569550,
  28216068714902156948030, 28218131936410623569550, 28222111942422283506550, 28227157585904198184910, 28234128141514406520500,
  28237150654432392585460, 28238129860016975787100, 28246076282368723872525, 28248089320451962618960, 28251099035184976160640,
  28254157585904198184910, 28255157585904198184910, 28263102947586147928810, 28267141491525073843900, 28270157585904198184910,
  28271102779514964764990, 28286077249319919323405, 28287096208633657322570, 28291113518711725542370, 28293138126802707631780,
  28294133606951470201200, 28297122032423583290760, 28304074010966071599285, 28310084723987051161080, 28316095261424032679680,
  28317100887094968379710, 28319157585904198184910, 28322101025986089986390, 28325118667701217078640, 28330090967356792731790,
  28331088320133865957650, 28335116642458575963900, 28340136791488781386550, 28342093767744024123920, 28354127140679820950680,
  28356098586930662359990, 28357095520144930935640, 28359125397145949502900, 28363083690264661408560, 28364105274818029639030,
  28366128682186619223260, 28369096037323258020720, 28371127140679820950680, 28372102655289764779420, 28373116642458575963900,
  28378101826413166721750, 28382109065601558988730, 28383157585904198184910, 28385079917498827329780, 28386121210042600921050,
  28388109144033333599000, 28389107818566773979170, 28390118465674143903450, 28392097571755418573410, 28393118873894089106000,
  28396102291613323070670, 28399109065601558988730, 28402120697109657045530, 28404102905302786833600, 28408105712046139777360,
  28414101826413166721750, 28415079917498827329780, 28417089429504297441580, 28418123912945898320160, 28422104602730532704540,
  28425105824406872446610, 28431119299490233293960, 28435107749837981101550, 28436086963987875319350, 28442157585904198184910,
  28448103514186483583720, 28450053914002980855550, 28451131936410623569550, 28458121750714813623800, 28459092739551841832380,
  28460122322298952023290, 28465110581100540260730, 28466111046300696609670, 28467101491186246335300, 28472106771860548340280,
  28478139668309505904350, 28479112047135282179500, 28481120209208015351230, 28486157585904198184910, 28487103032693044607900,
  28491135613658424822710, 28497111141995206771180, 28500085641535687181560, 28504114147849979648070, 28507086802488402608200,
  28508086802488402608200, 28510124627535538141620, 28514134560053268244440, 28516080144537921905000, 28518122032423583290760,
  28525095281089722400090, 28526092306325021959400, 28527139668309505904350, 28528113518711725542370, 28536157585904198184910,
  28538136791488781386550, 28540120697109657045530, 28544124627535538141620, 28548102331374806867060, 28550111046300696609670,
  28551126675479664601750, 28552124627535538141620, 28556157585904198184910, 28557114411023062821800, 28558103292447908640490,
  28567120209208015351230, 28572104753866910805020, 28577122928545170187640, 28580060558735677448470, 28583134560053268244440,
  28595098586930662359990, 28608084216535061108730, 28609115390827146423830, 28610130505402187162800, 28611102095143349232700,
  28625096878526918160010, 28626133606951470201200, 28629096208633657322570, 28632157585904198184910, 28638146599781311503800,
  28639062647266105393860, 28640134560053268244440, 28641110223919714239940, 28644103604277183007380, 28651107818566773979170,
  28654138126802707631780, 28655146599781311503800, 28657097571755418573410, 28666138126802707631780, 28668133606951470201200,
  28670109144033333599000, 28677121210042600921050, 28678150654432392585460, 28681118465674143903450, 28687134560053268244440,
  28689126675479664601750, 28693133606951470201200, 28698108533156413800600, 28699113042431235649840, 28701109545693750852330,
  28703103032693044607900, 28704157585904198184910, 28707126675479664601750, 28712096878526918160010, 28722135613658424822710]

def emitM6 : List Nat := [
  28729157585904198184910, 28734104753866910805020, 28739143722960586986000, 28748108910559693629080, 28751119973903041249270,
  28753112699540500863510, 28760118873894089106000, 28765119973903041249270, 28771077249319919323405, 28772118465674143903450,
  28777157585904198184910, 28779073412175636844640, 28781095520144930935640, 28783094970987354974490, 28784081084217189734900,
  28789079018836267226500, 28790117332387290833410, 28792122928545170187640, 28796111838794413151080, 28797092204505960508200,
  28798092204505960508200, 28799095105475453100610, 28800105938044458949760, 28805131195330902032320, 28809103469443679634500,
  28814095009228319358530, 28818134560053268244440, 28820150654432392585460, 28821146599781311503800, 28825112699540500863510,
  28828104855908612547440, 28836150654432392585460, 28843115390827146423830, 28844087573447977490150, 28845104307142510289100,
  28846093533619617876480, 28847105063169917718610, 28851083524870385814760, 28856085907812355020460, 28857070090164717355620,
  28858066304367188302550, 28860109710986770364440, 28861109710986770364440, 28865116154556934269570, 28866095889796873270350,
  28867157585904198184910, 28872090727294727501310, 28874146599781311503800, 28879095047616082430170, 28888107151653028992440,
  28889150654432392585460, 28891116981474092720710, 28895085747197047560380, 28900128682186619223260, 28902104907322607551630,
  28903095785737661659190, 28904118667701217078640, 28905150654432392585460, 28907157585904198184910, 28909074952577523785235,
  28911101166833488803770, 28916157585904198184910, 28919123246032153333440, 28921141491525073843900, 28922157585904198184910,
  28925124627535538141620, 28937118667701217078640, 28938129253770757622740, 28947157585904198184910, 28949091849102528578450,
  28953128682186619223260, 28954116314560347733980, 28961059030858573045140, 28966109879057953528250, 28975132736837700304910,
  28976103292447908640490, 28977116314560347733980, 28982061377973982231040, 29001109710986770364440, 29002130505402187162800,
  29004101864363876407250, 29006123912945898320160, 29010104855908612547440, 29017085747197047560380, 29020103514186483583720,
  29022126675479664601750, 29028107957457895585840, 29029091849102528578450, 29030117696063732542160, 29031087729486021792820,
  29033104907322607551630, 29036105938044458949760, 29038125004938817970100, 29060125397145949502900, 29066097088569645865320,
  29071114147849979648070, 29074141491525073843900, 29076132736837700304910, 29080157585904198184910, 29081099809380965958340,
  29087096317212357043050, 29088116314560347733980, 29096122032423583290760, 29105074952577523785235, 29107135613658424822710,
  29113157585904198184910, 29118109710986770364440, 29121118667701217078640, 29123096493428370541250, 29128094970987354974490,
  29130135613658424822710, 29134132736837700304910, 29138095785737661659190, 29141076839413447518385, 29145157585904198184910,
  29146157585904198184910, 29151077078870383481926, 29157113641412651460510, 29158095105475453100610, 29165116981474092720710,
  29166118073467012370640, 29172150654432392585460, 29183135613658424822710, 29190105010950477907100, 29197116154556934269570,
  29200103469443679634500, 29211095889796873270350, 29226122620828583520100, 29228116477165556451790, 29229078598080628481810,
  29232146599781311503800, 29233071806784933675470, 29237105938044458949760, 29238097159575861361100, 29239093337213959131020,
  29240150654432392585460, 29241143722960586986000, 29242093337213959131020, 29245108241164866878000, 29246053809204812152105,
  29247150654432392585460, 29254106771860548340280, 29255084453700327281890, 29256076930109925363980, 29260096605161376522500,
  29261146599781311503800, 29272146599781311503800, 29273077002631132375330, 29275086133942848213200, 29279107087344125689530,
  29281121750714813623800, 29282103336404023370870, 29287081502159454377080, 29289061494739278849400, 29294157585904198184910,
  29295150654432392585460, 29298096901648315743800, 29301109545693750852330, 29305063071879960257530, 29306111238614315888550,
  29309109545693750852330, 29312122032423583290760, 29313105382345947401660, 29322122032423583290760, 29334143722960586986000,
  29346122032423583290760, 29351111238614315888550, 29356104602730532704540, 29359104258716265531210, 29366079559723563758190,
  29368125004938817970100, 29369092955609628978200, 29376079559723563758190, 29378112812536053402840, 29380103559130379462100,
  29384109464060644460730, 29392069741219657281350, 29399092603082703420570, 29406138126802707631780, 29408097088569645865320,
  29420081974688302882530, 29422100818366175502100, 29424121750714813623800, 29425131936410623569550, 29426128141514406520500,
  29432110581100540260730, 29435122620828583520100, 29436099594977653579640, 29437109464060644460730, 29454111141995206771180,
  29463128141514406520500, 29465121750714813623800, 29467100284906368449160, 29468120950287736888440, 29474128682186619223260,
  29481115842031499228530, 29482109223085128670120, 29483111942422283506550, 29486072316449369595750, 29492104753866910805020,
  29494092955609628978200, 29495126230962038893410, 29499128141514406520500, 29503109627998742217500, 29505125004938817970100,
  29508131936410623569550, 29509100818366175502100, 29518094838283985765520, 29520150654432392585460, 29536131195330902032320,
  29544081974688302882530, 29549146599781311503800, 29552138126802707631780, 29554095994950313265580, 29557111141995206771180,
  29560112152956375484860, 29562146599781311503800, 29563072316449369595750, 29572089775327938823110, 29575096560318252049220,
  29577064134569515007760, 29579072634383592791330, 29585114018815931288980, 29590118873894089106000, 29593157585904198184910,
  29595087375064555293510, 29602136791488781386550, 29605157585904198184910, 29609089148404708122650, 29611110951513257064230,
  29614102291613323070670, 29615079277674246831750, 29616085611550657219000, 29618084216535061108730, 29619143722960586986000,
  29626118073467012370640, 29627105656335689282800, 29632122620828583520100, 29634116477165556451790, 29640133606951470201200,
  29641129253770757622740, 29642096208633657322570, 29645085679143854862830, 29647125805365894705460, 29649118465674143903450,
  29657141491525073843900, 29664087136853026891200, 29667157585904198184910, 29671146599781311503800, 29673134560053268244440,
  29677071728044369366420, 29678126230962038893410, 29682157585904198184910, 29690130505402187162800, 29694085611550657219000,
  29699075701791117394600, 29701107151653028992440, 29702057049602088526430, 29703157585904198184910, 29705114959105427771750,
  29711111838794413151080, 29712143722960586986000, 29723125397145949502900, 29730121476725071742650, 29734080669335970079440,
  29736131195330902032320, 29738102291613323070670, 29740124627535538141620, 29742128682186619223260, 29744127628581462644990,
  29746157585904198184910, 29747093321019623608000, 29748086055387848810110, 29749134560053268244440, 29750114959105427771750,
  29756093033918564783690, 29759157585904198184910, 29761157585904198184910, 29771102291613323070670, 29781150654432392585460,
  29785100284906368449160, 29786095560549026305670, 29787109545693750852330, 29788103380554205462050, 29790075027619925366600,
  29791097112182407722130, 29792115997073364588190, 29795143722960586986000, 29796093835655999903940, 29801094164690010973380,
  29802087375064555293510, 29805146599781311503800, 29807107151653028992440, 29808103604277183007380, 29814093835655999903940,
  29815133606951470201200, 29822106896862175982600, 29824150654432392585460, 29825125397145949502900, 29827080524274496189140,
  29831118073467012370640, 29833111838794413151080, 29835119299490233293960, 29838135613658424822710, 29840099655768114343460,
  29848157585904198184910, 29852138126802707631780, 29854125004938817970100, 29855150654432392585460, 29856150654432392585460,
  29859114018815931288980, 29862133606951470201200, 29863118667701217078640, 29864133606951470201200, 29865150654432392585460,
  29872079277674246831750, 29877157585904198184910, 29882146599781311503800, 29885118073467012370640, 29898093033918564783690,
  29903118465674143903450, 29906123912945898320160, 29908135613658424822710, 29914123912945898320160, 29916094253107916788000,
  29922128682186619223260, 29923124263859096432870, 29924139668309505904350, 29926075847329650448690, 29934120950287736888440,
  29935143722960586986000, 29942098586930662359990, 29943112587807494882260, 29956141491525073843900, 29964143722960586986000,
  29973120950287736888440, 29976086998322672998260, 29978096627658573862650, 29980098836596889664600, 29983057196108978452060,
  29986049885697674237680, 29989114959105427771750, 29992069502212666962160, 29995097303118995877930, 29996100956299396825440,
  30000068775877955629210, 30001066046087815116920, 30002078158728792447000, 30003098808546380388510, 30005063531768071231900,
  30007089696186768263200, 30008094324409466633910, 30010125805365894705460, 30011089223311425414240, 30014139668309505904350,
  30021113641412651460510, 30026136791488781386550, 30028066505042818810640, 30031099902694240247190, 30033120697109657045530,
  30036136791488781386550, 30041086585632531892300, 30043157585904198184910, 30044121476725071742650, 30050096971335008904730,
  30053076261777453175850, 30058100548079451622900, 30059089223311425414240, 30060139668309505904350, 30064084924616402620400,
  30066139668309505904350, 30068143722960586986000, 30070067816964921524150, 30072143722960586986000, 30073150654432392585460,
  30079129860016975787100, 30086093065414653812650, 30087143722960586986000, 30090096382930008675400, 30095108098305294403230,
  30097088802639515271660, 30103093921199720870520, 30105109710986770364440, 30106136791488781386550, 30111135613658424822710,
  30113122620828583520100, 30116157585904198184910, 30117138126802707631780, 30123095785737661659190, 30126112699540500863510,
  30127107749837981101550, 30129127140679820950680, 30130101025986089986390, 30137133606951470201200, 30140119973903041249270,
  30142085251350011970520, 30149083610288842944380, 30151114545253266143220, 30152139668309505904350, 30153146599781311503800,
  30157134560053268244440, 30162141491525073843900, 30165118873894089106000, 30168146599781311503800, 30169146599781311503800,
  30171093176438791855700, 30174146599781311503800, 30178129253770757622740, 30187128141514406520500, 30192138126802707631780,
  30196106405966074017350, 30201119744007859002300, 30202119744007859002300, 30208135613658424822710, 30219107749837981101550,
  30220143722960586986000, 30221122620828583520100, 30239131936410623569550, 30240146599781311503800, 30241112699540500863510,
  30244110581100540260730, 30246110951513257064230, 30247135613658424822710, 30249126675479664601750, 30250143722960586986000,
  30260106052988253207100, 30270126675479664601750, 30271150654432392585460, 30274093921199720870520, 30279128141514406520500,
  30284111634705696839000, 30300127628581462644990, 30303143722960586986000, 30306141491525073843900, 30315111942422283506550,
  30317150654432392585460, 30318126675479664601750, 30320139668309505904350, 30322111942422283506550, 30328135613658424822710,
  30331086008549355685840, 30332062779939292139050, 30333066553899234002120, 30334057189561476090210, 30338108313367346612870,
  30340072419974084742850, 30342087748004545603560, 30343074733292857495420, 30344146599781311503800, 30347131195330902032320,
  30350124627535538141620, 30353124627535538141620, 30355111942422283506550, 30358119744007859002300, 30361150654432392585460,
  30362124627535538141620, 30382083243330376853550, 30384127140679820950680, 30385133606951470201200, 30394133606951470201200,
  30399157585904198184910, 30402134560053268244440, 30406091669166878098330, 30408092350281136689780, 30410079345444089621980,
  30414115244839152212300, 30415138126802707631780, 30416099747652374887540, 30417086777225231277100, 30418121210042600921050,
  30420128682186619223260, 30422086569144481990460, 30423111046300696609670, 30424091478943751007320, 30427081881471677611160,
  30428111046300696609670, 30430138126802707631780, 30431087348314650800470, 30433084730838712957050, 30435086777225231277100,
  30436091478943751007320, 30439094253107916788000, 30442084527303871344820, 30446077472353106572050, 30447133606951470201200,
  30450117696063732542160, 30452080045377807827340, 30456068200587711377985, 30457129860016975787100, 30460108169479972091850,
  30462106405966074017350, 30465074607977934376290, 30472110581100540260730, 30473084106465966698030, 30475102252009310909700,
  30489141491525073843900, 30494136791488781386550, 30495072308530145265820, 30496103336404023370870, 30501136791488781386550]

def emitM7 : List Nat := [
  30502136791488781386550, 30504112259909266652350, 30505127140679820950680, 30509134560053268244440, 30511103248684162642500,
  30518110672425375893480, 30519131195330902032320, 30520122620828583520100, 30522150654432392585460, 30524076371100450677400,
  30526078233608800015840, 30528085946437354759430, 30529099385074894661300, 30542157585904198184910, 30544132736837700304910,
  30555119084428181084320, 30556099385074894661300, 30558132736837700304910, 30561134560053268244440, 30563073124636768361135,
  30566110050002287121260, 30568141491525073843900, 30571117332387290833410, 30572157585904198184910, 30585127628581462644990,
  30589110400915485233960, 30590126675479664601750, 30591109065601558988730, 30596143722960586986000, 30597139668309505904350,
  30599103248684162642500, 30604113397498120218930, 30606090063200436767480, 30609114545253266143220, 30610111046300696609670,
  30622111046300696609670, 30631146599781311503800, 30633103380554205462050, 30634095066865366526020, 30636097671258727105080,
  30643157585904198184910, 30651101864363876407250, 30655141491525073843900, 30682103380554205462050, 30683098450874141802200,
  30684141491525073843900, 30690112152956375484860, 30691146599781311503800, 30693073156898329841080, 30697108833930966173400,
  30699128141514406520500, 30701090168897251664360, 30702111634705696839000, 30703128141514406520500, 30707068096148119767150,
  30710117155391519839400, 30712135613658424822710, 30717115689356777920660, 30718111838794413151080, 30719089947055112560560,
  30721101940700124957960, 30722107281524984260560, 30729139668309505904350, 30733128682186619223260, 30740082753460037446410,
  30742111634705696839000, 30746113518711725542370, 30757098864726303430750, 30765126675479664601750, 30768127140679820950680,
  30772077239593868953850, 30775141491525073843900, 30776123573930381563350, 30778136791488781386550, 30779116642458575963900,
  30782121750714813623800, 30784092306325021959400, 30789115689356777920660, 30805096695455443716440, 30813098836596889664600,
  30827109223085128670120, 30828094596411729625490, 30830088639203803850090, 30831113518711725542370, 30844130505402187162800,
  30860105712046139777360, 30861100548079451622900, 30862097547033527119510, 30865113159391633281740, 30867131936410623569550,
  30871107413105830035660, 30872125397145949502900, 30874143722960586986000, 30875127628581462644990, 30879120697109657045530,
  30883157585904198184910, 30887083237425446064900, 30889096695455443716440, 30896108241164866878000, 30897103205111108952940,
  30899108241164866878000, 30900136791488781386550, 30906088639203803850090, 30908101940700124957960, 30910141491525073843900,
  30913084262212138894290, 30917111336176065342200, 30922100317426722312940, 30923146599781311503800, 30928127628581462644990,
  30932150654432392585460, 30933116810529759127700, 30938111634705696839000, 30951127628581462644990, 30952094182311160907400,
  30956121750714813623800, 30959117155391519839400, 30967110951513257064230, 30970120697109657045530, 30977132736837700304910,
  30990092306325021959400, 31001100548079451622900, 31014089947055112560560, 31018136791488781386550, 31019121750714813623800,
  31020111838794413151080, 31025116642458575963900, 31034083739800366415160, 31036079325464062995250, 31038076768062128834895,
  31040122928545170187640, 31041093160502533502920, 31048123573930381563350, 31049150654432392585460, 31054114411023062821800,
  31056134560053268244440, 31062078116190621249000, 31066107749837981101550, 31067130505402187162800, 31068113518711725542370,
  31069088649340652158560, 31070071716846159909520, 31071103292447908640490, 31072118667701217078640, 31077074952577523785235,
  31080092573007492781020, 31085118667701217078640, 31087115997073364588190, 31095138126802707631780, 31096101166833488803770,
  31098089958609128866110, 31102157585904198184910, 31103099237796827558850, 31104135613658424822710, 31105081122366973724920,
  31108099237796827558850, 31109101940700124957960, 31117101166833488803770, 31118115997073364588190, 31119072468118611037520,
  31125114411023062821800, 31142089820834274463070, 31143093852706302414770, 31146101940700124957960, 31150079325464062995250,
  31153138126802707631780, 31155143722960586986000, 31161105600933885526640, 31162119744007859002300, 31163080765689089916160,
  31165110581100540260730, 31166120697109657045530, 31167109144033333599000, 31168071431821809052980, 31169093097010256716320,
  31171109144033333599000, 31172157585904198184910, 31174143722960586986000, 31176157585904198184910, 31177075749138371978330,
  31179072628251758158730, 31181076999467076028730, 31185061962560424221165, 31186115538978004275240, 31192097399972053222560,
  31199092320955602477000, 31203131936410623569550, 31204135613658424822710, 31206103032693044607900, 31207121210042600921050,
  31209127140679820950680, 31213157585904198184910, 31215076238296373998450, 31216092955609628978200, 31227092146785742536980,
  31229118073467012370640, 31232096537971874035050, 31234150654432392585460, 31237093112845572772770, 31240143722960586986000,
  31243070282232081255340, 31246093112845572772770, 31255157585904198184910, 31258114545253266143220, 31262125397145949502900,
  31264109879057953528250, 31267130505402187162800, 31278076999467076028730, 31281092955609628978200, 31282136791488781386550,
  31283096832443887298060, 31287131195330902032320, 31291107887771202424900, 31292095479903427938380, 31293108757884972321200,
  31295112926823011639070, 31302091305490436389580, 31308130505402187162800, 31309076238296373998450, 31310088700179602531270,
  31319107957457895585840, 31330118073467012370640, 31337096832443887298060, 31344139668309505904350, 31348097547033527119510,
  31350065746966978572910, 31351095520144930935640, 31354069967270465437630, 31359116810529759127700, 31361104804757605879730,
  31363107087344125689530, 31364117512572345860190, 31368132736837700304910, 31373107681578330397550, 31377109464060644460730,
  31381133606951470201200, 31383117882985062663690, 31384157585904198184910, 31388134560053268244440, 31389099325903124380410,
  31391130505402187162800, 31392138126802707631780, 31397118667701217078640, 31398113397498120218930, 31400121210042600921050,
  31401099325903124380410, 31402113042431235649840, 31406095520144930935640, 31407109464060644460730, 31418118667701217078640,
  31423133606951470201200, 31428134560053268244440, 31429107681578330397550, 31431113397498120218930, 31434107087344125689530,
  31435064351892555582940, 31441157585904198184910, 31446109065601558988730, 31449110136582914552400, 31454113042431235649840,
  31455117512572345860190, 31456086357237612194080, 31459143722960586986000, 31461090689911506395240, 31469105938044458949760,
  31471089684931843045860, 31478113042431235649840, 31481092262561275961410, 31482118873894089106000, 31485134560053268244440,
  31487108169479972091850, 31491111838794413151080, 31494146599781311503800, 31503146599781311503800, 31505084016721774624700,
  31508093353434562849700, 31509157585904198184910, 31513122620828583520100, 31515109710986770364440, 31518157585904198184910,
  31520128682186619223260, 31525150654432392585460, 31526098105554306378440, 31528117696063732542160, 31532078465335316394850,
  31539126230962038893410, 31546134560053268244440, 31548117332387290833410, 31558093353434562849700, 31561072286784559944780,
  31563106169268633158300, 31567134560053268244440, 31568146599781311503800, 31569072476165282161700, 31570107347098989722150,
  31572097721384145340530, 31574091411874418440120, 31579133606951470201200, 31581120950287736888440, 31584124263859096432870,
  31591157585904198184910, 31601101902459160573940, 31607143722960586986000, 31609096471230803158110, 31614118073467012370640,
  31616100481634024436200, 31627134560053268244440, 31629106110959430050380, 31631120950287736888440, 31632157585904198184910,
  31636157585904198184910, 31637146599781311503800, 31639067936392081038370, 31649074839784736089380, 31657146599781311503800,
  31659116477165556451790, 31661085808080036232930, 31665109302766825161900, 31668157585904198184910, 31680085136488734814840,
  31684067726443810581705, 31687083827082716034780, 31689072476165282161700, 31699146599781311503800, 31716111838794413151080,
  31721133606951470201200, 31726102331374806867060, 31729120450183531141820, 31735111736229411479190, 31751125805365894705460,
  31756114147849979648070, 31757146599781311503800, 31777100481634024436200, 31783110223919714239940, 31786135613658424822710,
  31787116477165556451790, 31799120450183531141820, 31800143722960586986000, 31805118073467012370640, 31806097375670704689640,
  31807129253770757622740, 31809112812536053402840, 31811102331374806867060, 31820096471230803158110, 31821112152956375484860,
  31839112812536053402840, 31840117332387290833410, 31852120450183531141820, 31854146599781311503800, 31858099625326690531180,
  31859072015997585281870, 31867087437760685429460, 31868157585904198184910, 31869114819243008024350, 31881099809380965958340,
  31890096251923768218410, 31895118667701217078640, 31896109223085128670120, 31903100921637317060590, 31908100648582810157910,
  31909134560053268244440, 31914122620828583520100, 31918094199963416153080, 31921115100951777691300, 31925100648582810157910,
  31929103469443679634500, 31932125397145949502900, 31934081218383073827120, 31946086133942848213200, 31957136791488781386550,
  31958095360141517471210, 31961123912945898320160, 31966122620828583520100, 31967109627998742217500, 31968128141514406520500,
  31975094199963416153080, 31995064955627255633015, 31998122928545170187640, 32000070978164999247290, 32002120209208015351230,
  32004078895710433194670, 32005064819942520652430, 32006143722960586986000, 32007157585904198184910, 32009109964164850207350,
  32011101309693061278540, 32013075363053459457740, 32016099035184976160640, 32019129860016975787100, 32020088639203803850090,
  32021157585904198184910, 32023095360141517471210, 32025096740910067433200, 32026070418908468541980, 32027097231089872937350,
  32028157585904198184910, 32032080646530943092180, 32033088823258079277250, 32034082432458486380540, 32039095682750139653430,
  32043084035884987132330, 32047094819469304768460, 32048075816365515927100, 32049157585904198184910, 32051135613658424822710,
  32057084621771510445710, 32058134560053268244440, 32066100350053178661100, 32068075627050285036940, 32070126675479664601750,
  32080076560039944277010, 32085094378221255679090, 32091132736837700304910, 32093123246032153333440, 32094108757884972321200,
  32097081804449473990250, 32098120209208015351230, 32102091961463261247700, 32104109464060644460730, 32110097621383311994700,
  32113074738338266280560, 32114082759085916638390, 32115127140679820950680, 32121122928545170187640, 32129134560053268244440,
  32131143722960586986000, 32143112926823011639070, 32147060214526545666190, 32156102821268678869800, 32160081969486742297110,
  32162097065012508940730, 32172104907322607551630, 32173064267406304451110, 32177096493428370541250, 32178088782063376324860,
  32184124627535538141620, 32186114819243008024350, 32187128141514406520500, 32189103740953570294020, 32190104907322607551630,
  32191096382930008675400, 32202095682750139653430, 32210087015534381206000, 32215157585904198184910, 32216129253770757622740,
  32218077558962575345530, 32221105491042669770700, 32224108241164866878000, 32227095479903427938380, 32232088164337141190220,
  32233100220181223392990, 32236150654432392585460, 32239087509898058666380, 32242157585904198184910, 32244080587480124215050,
  32249157585904198184910, 32264119519279300481710, 32265126230962038893410, 32272118465674143903450, 32283121210042600921050,
  32287123912945898320160, 32291093500616287589920, 32299113277736209751780, 32302095621462920239700, 32305101025986089986390,
  32311113042431235649840, 32313119744007859002300, 32317073434299539674050, 32318112477309133016410, 32321098697124614856100,
  32323131195330902032320, 32324157585904198184910, 32326117512572345860190, 32327129253770757622740, 32340074934547898811050,
  32346106405966074017350, 32350107216378174048610, 32353104307142510289100, 32361107151653028992440, 32362090371647190278480,
  32365115244839152212300, 32371135613658424822710, 32377102173268746600650, 32379157585904198184910, 32380075411518820883030,
  32381107281524984260560, 32386125004938817970100, 32392134560053268244440, 32396084242610695179540, 32399117882985062663690,
  32403119973903041249270, 32406091452062014389310, 32408143722960586986000, 32412128141514406520500, 32416122928545170187640,
  32417143722960586986000, 32418064819942520652430, 32419120209208015351230, 32420091452062014389310, 32421157585904198184910]

def emitM8 : List Nat := [
  32422078895710433194670, 32423070418908468541980, 32426070978164999247290, 32427109964164850207350, 32428087509898058666380,
  32429157585904198184910, 32430129860016975787100, 32431088639203803850090, 32432157585904198184910, 32433095360141517471210,
  32434096493428370541250, 32435075363053459457740, 32437101025986089986390, 32438124627535538141620, 32439097231089872937350,
  32440096740910067433200, 32441101309693061278540, 32442088823258079277250, 32445099035184976160640, 32446129860016975787100,
  32447077558962575345530, 32448134560053268244440, 32450157585904198184910, 32451080587480124215050, 32452075627050285036940,
  32453135613658424822710, 32454075816365515927100, 32455074934547898811050, 32456100350053178661100, 32457118465674143903450,
  32458126675479664601750, 32461084621771510445710, 32462102173268746600650, 32463060214526545666190, 32465134560053268244440,
  32466109464060644460730, 32467076560039944277010, 32468123246032153333440, 32469107216378174048610, 32472090371647190278480,
  32473091961463261247700, 32474120209208015351230, 32475127140679820950680, 32476081804449473990250, 32477094378221255679090,
  32478108757884972321200, 32479074738338266280560, 32481143722960586986000, 32482122928545170187640, 32483104307142510289100,
  32485112926823011639070, 32486132736837700304910, 32487075411518820883030, 32489112477309133016410, 32490087015534381206000,
  32491104907322607551630, 32493084242610695179540, 32494114819243008024350, 32496103740953570294020, 32499107151653028992440,
  32500064267406304451110, 32501096382930008675400, 32502104907322607551630, 32503131195330902032320, 32504097065012508940730,
  32508102821268678869800, 32509128141514406520500, 32511081969486742297110, 32515157585904198184910, 32516129253770757622740,
  32517150654432392585460, 32518128141514406520500, 32519157585904198184910, 32520157585904198184910, 32521105491042669770700,
  32531100220181223392990, 32532108241164866878000, 32533113042431235649840, 32534088164337141190220, 32536095479903427938380,
  32537126230962038893410, 32538121210042600921050, 32539123912945898320160, 32541113277736209751780, 32544117882985062663690,
  32548107281524984260560, 32549119744007859002300, 32552119973903041249270, 32553095621462920239700, 32554117512572345860190,
  32556134560053268244440, 32557106405966074017350, 32560128682186619223260, 32564135613658424822710, 32565143722960586986000,
  32568135613658424822710, 32570103292447908640490, 32573122620828583520100, 32578138126802707631780, 32588138126802707631780,
  32592110312026011061500, 32593088782063376324860, 32596115538978004275240, 32597093500616287589920, 32599061384609682540890,
  32600127628581462644990, 32602106346264404152320, 32607157585904198184910, 32609141491525073843900, 32610103161727092966980,
  32617131936410623569550, 32618092633248638814830, 32622087312759057787140, 32624106346264404152320, 32626122620828583520100,
  32629109464060644460730, 32631103161727092966980, 32641143722960586986000, 32645061384609682540890, 32648143722960586986000,
  32650089752652192145310, 32652115997073364588190, 32654060247056516685420, 32660139668309505904350, 32666128141514406520500,
  32670104552855117594150, 32671150654432392585460, 32673108607506198675790, 32676081398480421480780, 32677150654432392585460,
  32679146599781311503800, 32680108607506198675790, 32681067342182455564600, 32687141491525073843900, 32690106834166045846640,
  32697122322298952023290, 32701094235361683204320, 32703134560053268244440, 32705107023446144701830, 32709099063879400440160,
  32714085222510770641460, 32716146599781311503800, 32718128682186619223260, 32722085477719663462700, 32724100317426722312940,
  32728126675479664601750, 32736080881618976277970, 32737150654432392585460, 32741130505402187162800, 32745110490602185061560,
  32752092770132905420600, 32753157585904198184910, 32761126675479664601750, 32763101864363876407250, 32764090383702646831950,
  32768084765167617250260, 32769071042473902550190, 32771087392937661034460, 32773079896343752801590, 32774130505402187162800,
  32779135613658424822710, 32780062750980271748520, 32781143722960586986000, 32784089021284352239040, 32789095931725655870700,
  32791107023446144701830, 32792129860016975787100, 32796157585904198184910, 32819077954783608392010, 32822087339413893648550,
  32823131195330902032320, 32824106405966074017350, 32827103380554205462050, 32831097327244459931760, 32834111434699029772300,
  32835135613658424822710, 32838157585904198184910, 32842104703233891239550, 32843112368018427694500, 32844082291839619814780,
  32852067777890062453780, 32854083795822921901860, 32856087084678995494310, 32858089127105445544410, 32862074320735895789620,
  32874091292271663810420, 32879067777890062453780, 32880091292271663810420, 32881141491525073843900, 32882072843047294135290,
  32883106405966074017350, 32886111434699029772300, 32887082291839619814780, 32893087794451447496800, 32894112368018427694500,
  32895115538978004275240, 32899093049654209257980, 32900157585904198184910, 32901093049654209257980, 32902125805365894705460,
  32903091279070341761180, 32905085559292232952530, 32907131195330902032320, 32908101676034393076340, 32918093385954916713490,
  32920150654432392585460, 32922094894941361122300, 32925101096161816572840, 32927146599781311503800, 32928088812943483210610,
  32929091863078771244830, 32930107216378174048610, 32932100382786432110790, 32933092816180569288080, 32937103032693044607900,
  32938098001657267887090, 32942157585904198184910, 32943104855908612547440, 32945139668309505904350, 32946069148310379005060,
  32954126675479664601750, 32957157585904198184910, 32958129860016975787100, 32959099716930384517820, 32960106169268633158300,
  32961101238008166492420, 32963124263859096432870, 32964138126802707631780, 32966093938396629665800, 32972102451616736535080,
  32974105221484569885400, 32982101564715989387900, 32986119519279300481710, 32987123246032153333440, 32988069767279302595450,
  32989138126802707631780, 32990088782063376324860, 32993088508351408363540, 32996118873894089106000, 32997117512572345860190,
  32999109964164850207350, 33003118073467012370640, 33007150654432392585460, 33008150654432392585460, 33009113765637851446100,
  33014106169268633158300, 33016104114828891010220, 33018118873894089106000, 33021067992788026460530, 33026099208599726525500,
  33029101238008166492420, 33030117882985062663690, 33032094182311160907400, 33033094182311160907400, 33034113641412651460510,
  33039092248015818851470, 33040125805365894705460, 33041086333073283077800, 33043108682412915967370, 33046115390827146423830,
  33050085186578284980210, 33051118073467012370640, 33065135613658424822710, 33067098505074816495600, 33071139668309505904350,
  33073098505074816495600, 33074143722960586986000, 33080102947586147928810, 33081106169268633158300, 33086098641875855536400,
  33096133606951470201200, 33098087410842768772350, 33099131195330902032320, 33102129860016975787100, 33104090039863203305280,
  33105117696063732542160, 33108097112182407722130, 33109121476725071742650, 33125109223085128670120, 33126086333073283077800,
  33131099716930384517820, 33133146599781311503800, 33134112152956375484860, 33136107546441138730300, 33139085186578284980210,
  33144088812943483210610, 33145097721384145340530, 33146089042359175634690, 33147122928545170187640, 33150089042359175634690,
  33151096122611621495930, 33152125805365894705460, 33160150654432392585460, 33162116154556934269570, 33167099092656398716300,
  33178100382786432110790, 33179111046300696609670, 33180100091974339102380, 33181119299490233293960, 33184106169268633158300,
  33192093484155378523240, 33193122928545170187640, 33203136791488781386550, 33210146599781311503800, 33213093938396629665800,
  33215108682412915967370, 33217157585904198184910, 33218102614221945252880, 33222130505402187162800, 33225102947586147928810,
  33229125805365894705460, 33240087410842768772350, 33247092248015818851470, 33251091793392078083900, 33253110136582914552400,
  33255150654432392585460, 33256090407857247948000, 33258058243796946395220, 33261113518711725542370, 33267077717455186571080,
  33268085287516416672400, 33275114681309786701000, 33276123246032153333440, 33278129860016975787100, 33282150654432392585460,
  33284136791488781386550, 33285112152956375484860, 33286146599781311503800, 33287084453700327281890, 33288071469965529807680,
  33289078792989347362200, 33290102990049056743320, 33292096339070289242860, 33293098836596889664600, 33296157585904198184910,
  33298091641769600687120, 33308098780574334177900, 33310088261425282459810, 33311106405966074017350, 33322079820553916332500,
  33323143722960586986000, 33324087119431419697350, 33328095500003937218610, 33329146599781311503800, 33333113765637851446100,
  33334114819243008024350, 33336136791488781386550, 33337094486721415919740, 33342157585904198184910, 33351135613658424822710,
  33368157585904198184910, 33369146599781311503800, 33382095500003937218610, 33390109545693750852330, 33391075219050971060340,
  33392118267647870941650, 33393118267647870941650, 33394070283848242875020, 33395076499671514638960, 33399076499671514638960,
  33402074298978362729230, 33405150654432392585460, 33406095868898224075760, 33410085136488734814840, 33412157585904198184910,
  33418123246032153333440, 33419136791488781386550, 33423157585904198184910, 33424157585904198184910, 33426110400915485233960,
  33433105768068695264060, 33436121476725071742650, 33437099208599726525500, 33445136791488781386550, 33446108607506198675790,
  33448136791488781386550, 33449134560053268244440, 33452094800689956526460, 33453121750714813623800, 33454126675479664601750,
  33455110951513257064230, 33456157585904198184910, 33457069607397708874370, 33459081364158250008690, 33463089407598483643400,
  33464108533156413800600, 33465118267647870941650, 33467131195330902032320, 33469103075519662527900, 33473125805365894705460,
  33476157585904198184910, 33479120697109657045530, 33480136791488781386550, 33484113277736209751780, 33485103336404023370870,
  33487079281648019981590, 33489113891425673514690, 33491135613658424822710, 33492119744007859002300, 33493150654432392585460,
  33495083833346418087370, 33500139668309505904350, 33502123573930381563350, 33503110764591926942710, 33504157585904198184910,
  33505157585904198184910, 33507143722960586986000, 33509076933252109207580, 33510082399832030032380, 33511135613658424822710,
  33519098921223628851940, 33521070957396559798900, 33527106405966074017350, 33529120950287736888440, 33531124627535538141620,
  33538083338286579952820, 33539067726443810581705, 33540116477165556451790, 33541095723817959179960, 33542141491525073843900,
  33545110764591926942710, 33550130505402187162800, 33551134560053268244440, 33559119744007859002300, 33564108607506198675790,
  33575115244839152212300, 33576092379692922597950, 33579105328437461052900, 33580125397145949502900, 33581157585904198184910,
  33583141491525073843900, 33585122620828583520100, 33586088183679506988510, 33587157585904198184910, 33588133606951470201200,
  33589100317426722312940, 33590098343346224039580, 33592108987780154568180, 33593106286917048954170, 33600129860016975787100,
  33603119299490233293960, 33606107749837981101550, 33607143722960586986000, 33609082227599570201240, 33610107749837981101550,
  33615126675479664601750, 33616109879057953528250, 33617157585904198184910, 33618100887094968379710, 33620115100951777691300,
  33626139668309505904350, 33628141491525073843900, 33631122032423583290760, 33632139668309505904350, 33633084527303871344820,
  33635077847460438738030, 33637128682186619223260, 33638143722960586986000, 33639141491525073843900, 33641157585904198184910,
  33642150654432392585460, 33643107216378174048610, 33644157585904198184910, 33647077892326778021440, 33655100091974339102380,
  33659125004938817970100, 33660141491525073843900, 33673085389483796877550, 33674087982426907171830, 33678098669462079927200,
  33682141491525073843900, 33683132736837700304910, 33686130505402187162800, 33688118465674143903450, 33694114147849979648070,
  33696118667701217078640, 33698139668309505904350, 33704126230962038893410, 33705157585904198184910, 33706150654432392585460,
  33707076786626490602155, 33713077445854250390320, 33714078212157236551950, 33715146599781311503800, 33719095994950313265580,
  33721094164690010973380, 33722112699540500863510, 33725113159391633281740, 33728132736837700304910, 33729111046300696609670,
  33733128141514406520500, 33735120450183531141820, 33738090777357410282760, 33740093304851471338940, 33748146599781311503800,
  33750131936410623569550, 33752157585904198184910, 33756090157097840265870, 33760136791488781386550, 33761157585904198184910]

def emitM9 : List Nat := [
  33765150654432392585460, 33769119973903041249270, 33770128682186619223260, 33775052764971070954130, 33777116314560347733980,
  33778081804449473990250, 33789146599781311503800, 33793157585904198184910, 33795125004938817970100, 33796078853733649557490,
  33799113277736209751780, 33802077445854250390320, 33804105656335689282800, 33805099092656398716300, 33806150654432392585460,
  33809150654432392585460, 33820146599781311503800, 33821091600813912039740, 33829077078870383481926, 33830119519279300481710,
  33831102017623581189540, 33832075901040026918090, 33836061399223741206670, 33841141491525073843900, 33848146599781311503800,
  33852134560053268244440, 33853084440375874944100, 33862114959105427771750, 33865076996304020490730, 33873122322298952023290,
  33879085946437354759430, 33881157585904198184910, 33883085015877127264170, 33889113641412651460510, 33891114018815931288980,
  33894120697109657045530, 33899103740953570294020, 33900092379692922597950, 33901123246032153333440, 33905112259909266652350,
  33907143722960586986000, 33909125805365894705460, 33914132736837700304910, 33922083591923364871370, 33931125805365894705460,
  33940146599781311503800, 33943139668309505904350, 33945077555617534337580, 33948120209208015351230, 33953146599781311503800,
  33967146599781311503800, 33970121210042600921050, 33976102492020831905130, 33978123912945898320160, 33980103336404023370870,
  33983131195330902032320, 33984150654432392585460, 33985150654432392585460, 33988109464060644460730, 33993081753428955151300,
  33994150654432392585460, 33995086569144481990460, 34001157585904198184910, 34003107281524984260560, 34013093256503270793100,
  34015129860016975787100, 34021117882985062663690, 34028103161727092966980, 34030078212157236551950, 34031125805365894705460,
  34044146599781311503800, 34045141491525073843900, 34047150654432392585460, 34067122928545170187640, 34071123573930381563350,
  34074113397498120218930, 34081118465674143903450, 34083125805365894705460, 34085112259909266652350, 34091143722960586986000,
  34092143722960586986000, 34093107216378174048610, 34103130505402187162800, 34105157585904198184910, 34106135613658424822710,
  34107135613658424822710, 34108109464060644460730, 34109103559130379462100, 34115141491525073843900, 34121107281524984260560,
  34122113641412651460510, 34130157585904198184910, 34137121210042600921050, 34154121476725071742650, 34157102017623581189540,
  34162143722960586986000, 34164112368018427694500, 34171150654432392585460, 34174097847808079492290, 34180095973830981234140,
  34183106286917048954170, 34184122032423583290760, 34186129860016975787100, 34191135613658424822710, 34196130505402187162800,
  34199136791488781386550, 34203118465674143903450, 34204141491525073843900, 34214109879057953528250, 34217075901040026918090,
  34218097018064065898650, 34223129253770757622740, 34224126230962038893410, 34231157585904198184910, 34234139668309505904350,
  34249139668309505904350, 34253093256503270793100, 34254157585904198184910, 34255076980503732798510, 34259119519279300481710,
  34261096079876513722110, 34268139668309505904350, 34269074298978362729230, 34276082838182374206200, 34277077892326778021440,
  34281121750714813623800, 34294136791488781386550, 34297109464060644460730, 34298135613658424822710, 34299114545253266143220,
  34303136791488781386550, 34308143722960586986000, 34309125397145949502900, 34310108607506198675790, 34311079281648019981590,
  34314112368018427694500, 34315120950287736888440, 34321157585904198184910, 34330119519279300481710, 34334157585904198184910,
  34338134560053268244440, 34349066249151327777930, 34360143722960586986000, 34367091600813912039740, 34382083362167188316660,
  34383111434699029772300, 34384133606951470201200, 34385108607506198675790, 34389077813084330633400, 34394083671751851431320,
  34395083671751851431320, 34396111434699029772300, 34398105600933885526640, 34399089180438905298040, 34402146599781311503800,
  34407104907322607551630, 34411088389065699710800, 34425096582714677984270, 34429131195330902032320, 34430131195330902032320,
  34432106110959430050380, 34433118073467012370640, 34434119299490233293960, 34442128141514406520500, 34444118465674143903450,
  34453110581100540260730, 34460157585904198184910, 34465157585904198184910, 34467150654432392585460, 34468127140679820950680,
  34472138126802707631780, 34496157585904198184910, 34502157585904198184910, 34503097596538578718080, 34507090157097840265870,
  34510150654432392585460, 34512129860016975787100, 34516157585904198184910, 34521123573930381563350, 34523116642458575963900,
  34527121750714813623800, 34532111336176065342200, 34542114819243008024350, 34558129253770757622740, 34560111046300696609670,
  34562104067322863424230, 34563112047135282179500, 34567132736837700304910, 34568141491525073843900, 34569136791488781386550,
  34579125805365894705460, 34584125004938817970100, 34586119084428181084320, 34588103833120121343260, 34593114819243008024350,
  34606131195330902032320, 34619136791488781386550, 34631139668309505904350, 34632141491525073843900, 34633116642458575963900,
  34638119519279300481710, 34645106110959430050380, 34649150654432392585460, 34656139668309505904350, 34662131195330902032320,
  34676124627535538141620, 34678106110959430050380, 34690121750714813623800, 34701089191139815896480, 34718119299490233293960,
  34719157585904198184910, 34728133606951470201200, 34741143722960586986000, 34746105881064247803390, 34758129860016975787100,
  34760141491525073843900, 34766133606951470201200, 34770157585904198184910, 34784116154556934269570, 34796116642458575963900,
  34802088389065699710800, 34809124627535538141620, 34811118073467012370640, 34814146599781311503800, 34821139668309505904350,
  34829119519279300481710, 34837150654432392585460, 34838157585904198184910, 34847114819243008024350, 34849100123872292783370,
  34850115390827146423830, 34851150654432392585460, 34870110581100540260730, 34875114819243008024350, 34880074819412943966310,
  34885118465674143903450, 34892058650016994616100, 34893100887094968379710, 34899066292432070518394, 34900119084428181084320,
  34903090865574743574240, 34905122032423583290760, 34907068216348155932645, 34909080510782252181500, 34913101166833488803770,
  34915081378853329802290, 34917087401886207492900, 34920048132020335316940, 34921157585904198184910, 34923100448576143091210,
  34924141491525073843900, 34926134560053268244440, 34928100155872320090080, 34930123246032153333440, 34935098053470855307050,
  34943157585904198184910, 34945107818566773979170, 34946129253770757622740, 34949116810529759127700, 34950157585904198184910,
  34955105491042669770700, 34957124263859096432870, 34966101527883535224940, 34972135613658424822710, 34974134560053268244440,
  34987119744007859002300, 34989101638790402166510, 34993157585904198184910, 34996143722960586986000, 35009093002521364737000,
  35010097351428268574570, 35013073705951668739350, 35014125397145949502900, 35018116810529759127700, 35028126675479664601750,
  35029089786685123462390, 35032136791488781386550, 35033135613658424822710, 35036087401886207492900, 35037073705951668739350,
  35041061156238316717710, 35044121476725071742650, 35048119744007859002300, 35059139668309505904350, 35060134560053268244440,
  35064105221484569885400, 35065127140679820950680, 35068143722960586986000, 35074150654432392585460, 35088090916336273892830,
  35091135613658424822710, 35096157585904198184910, 35098119744007859002300, 35099143722960586986000, 35105131195330902032320,
  35109121210042600921050, 35120157585904198184910, 35122121476725071742650, 35124113277736209751780, 35126128682186619223260,
  35128143722960586986000, 35131150654432392585460, 35140093033918564783690, 35167109383088542134530, 35168125397145949502900,
  35172113277736209751780, 35178135613658424822710, 35183141491525073843900, 35186101638790402166510, 35199058277309204865120,
  35201076942684589076880, 35203146599781311503800, 35206092018120636604480, 35211073541180984663720, 35212135613658424822710,
  35215069898606025868260, 35219116810529759127700, 35222073429870841638865, 35242085215313936937530, 35250127628581462644990,
  35258091587199206056540, 35261080262211975341020, 35264081179865934248560, 35265073541180984663720, 35266081179865934248560,
  35268069898606025868260, 35269116810529759127700, 35270073429870841638865, 35272080262211975341020, 35273091587199206056540,
  35280127628581462644990, 35282076620775023168970, 35299070694627644947850, 35302100784178108014220, 35320100784178108014220,
  35328060413119708035100, 35330101826413166721750, 35335150654432392585460, 35336066455321706488615, 35338085536979096138170,
  35342087683339193246100, 35347088087339648177170, 35350150654432392585460, 35352076688012440291710, 35355114819243008024350,
  35359100750106524798100, 35365146599781311503800, 35370093081199976743140, 35373080886284243449130, 35377094324409466633910,
  35380096971335008904730, 35382111238614315888550, 35386102371295019562450, 35408115100951777691300, 35410126675479664601750,
  35412100155872320090080, 35413103161727092966980, 35419134560053268244440, 35422102532588838861280, 35424135613658424822710,
  35425130505402187162800, 35426101788605938322690, 35427134560053268244440, 35430084567680776805600, 35433090468500247623100,
  35435128682186619223260, 35437109964164850207350, 35441076808328560815710, 35442111736229411479190, 35443117696063732542160,
  35449108313367346612870, 35461117512572345860190, 35463108313367346612870, 35465090456342191414210, 35469098157910446917890,
  35475111838794413151080, 35477099840388742740820, 35480131936410623569550, 35486085287516416672400, 35488089244816810046520,
  35491157585904198184910, 35492112812536053402840, 35494127140679820950680, 35496135613658424822710, 35498078003632274961790,
  35504110951513257064230, 35506121476725071742650, 35516100682309654944300, 35519087375064555293510, 35522150654432392585460,
  35524118267647870941650, 35527083452230841232500, 35531092739551841832380, 35533141491525073843900, 35538129860016975787100,
  35542074270041761877370, 35543157585904198184910, 35547121476725071742650, 35548126675479664601750, 35559133606951470201200,
  35563116154556934269570, 35565117696063732542160, 35566136791488781386550, 35569117882985062663690, 35571131936410623569550,
  35574132736837700304910, 35575129253770757622740, 35576094007481533103900, 35578135613658424822710, 35582080619233382920300,
  35584080279763537547500, 35585141491525073843900, 35586115842031499228530, 35594130505402187162800, 35598141491525073843900,
  35600143722960586986000, 35606131936410623569550, 35607128141514406520500, 35609082470657714276250, 35611098131698112119160,
  35613092103713170561190, 35616129860016975787100, 35624106834166045846640, 35628122620828583520100, 35641102573322092737640,
  35657076895610910435330, 35662138126802707631780, 35672072380029953342380, 35673129253770757622740, 35674131195330902032320,
  35676099385074894661300, 35686087500852377362100, 35695096317212357043050, 35696073601807643922200, 35703070420546872739950,
  35709090456342191414210, 35712102614221945252880, 35722077923506432590230, 35730143722960586986000, 35731106587239919942910,
  35740150654432392585460, 35745066455321706488615, 35746101826413166721750, 35748098157910446917890, 35752087683339193246100,
  35753106587239919942910, 35755150654432392585460, 35757088087339648177170, 35758073601807643922200, 35759085536979096138170,
  35760076688012440291710, 35762098131698112119160, 35763117882985062663690, 35767146599781311503800, 35768094324409466633910,
  35769114819243008024350, 35770074270041761877370, 35772100750106524798100, 35773129253770757622740, 35774080886284243449130,
  35775093081199976743140, 35777076895610910435330, 35779111238614315888550, 35780103161727092966980, 35781134560053268244440,
  35782072380029953342380, 35784115100951777691300, 35785096971335008904730, 35786102371295019562450, 35789102532588838861280,
  35791100155872320090080, 35793096317212357043050, 35794126675479664601750, 35797084567680776805600, 35799090468500247623100,
  35802089244816810046520, 35803117512572345860190, 35805076808328560815710, 35806099840388742740820, 35809109964164850207350,
  35810101788605938322690, 35811134560053268244440, 35812141491525073843900, 35813111736229411479190, 35814117696063732542160,
  35815128682186619223260, 35817130505402187162800, 35820157585904198184910, 35821085287516416672400, 35823112812536053402840,
  35825131936410623569550, 35826135613658424822710, 35828078003632274961790, 35829127140679820950680, 35831092739551841832380,
  35832094007481533103900, 35834080619233382920300, 35835102614221945252880, 35838121476725071742650, 35840121476725071742650]

def emitM10 : List Nat := [
  35841110951513257064230, 35842157585904198184910, 35843087375064555293510, 35844150654432392585460, 35845129860016975787100,
  35846118267647870941650, 35848083452230841232500, 35850100682309654944300, 35851080279763537547500, 35852132736837700304910,
  35853126675479664601750, 35854130505402187162800, 35855116154556934269570, 35856133606951470201200, 35858141491525073843900,
  35859115842031499228530, 35861117696063732542160, 35863143722960586986000, 35865131936410623569550, 35866135613658424822710,
  35868141491525073843900, 35871106834166045846640, 35872150654432392585460, 35873131936410623569550, 35874092103713170561190,
  35875129860016975787100, 35876128141514406520500, 35878082470657714276250, 35879143722960586986000, 35880102573322092737640,
  35884122620828583520100, 35885131195330902032320, 35887129253770757622740, 35889099385074894661300, 35890138126802707631780,
  35895084717140080677900, 35905157585904198184910, 35910090541760648543830, 35911157585904198184910, 35912126230962038893410,
  35916143722960586986000, 35918109065601558988730, 35920086421962757250250, 35925146599781311503800, 35937078388706588939160,
  35946089958609128866110, 35947084966633271157400, 35948109223085128670120, 35960157585904198184910, 35961139668309505904350,
  35970122928545170187640, 35980103118530481521800, 35987111942422283506550, 35997080886284243449130, 35998082952273742984700,
  36000092663505847980190, 36001084772047562482080, 36002110312026011061500, 36007098236962241989030, 36008080564860797674400,
  36009106526449459179100, 36010111336176065342200, 36011088679812996713250, 36012069109430641066030, 36015119299490233293960,
  36018150654432392585460, 36020079925973404108160, 36022126675479664601750, 36023088320133865957650, 36024105436546622095050,
  36027071954682965138534, 36028115689356777920660, 36029098236962241989030, 36031083452230841232500, 36032097424332601201370,
  36033129253770757622740, 36034119973903041249270, 36035131195330902032320, 36036115390827146423830, 36039063047550002802010,
  36040101601684608201150, 36042106286917048954170, 36051090063200436767480, 36058128682186619223260, 36060100614969333130850,
  36062099996886459412100, 36064125004938817970100, 36065133606951470201200, 36066081388662060358200, 36067092032335280078250,
  36068117512572345860190, 36070116810529759127700, 36074075563819833820425, 36076124627535538141620, 36077143722960586986000,
  36084090615561721520060, 36090143722960586986000, 36092098343346224039580, 36093086610415692036980, 36094138126802707631780,
  36101157585904198184910, 36103134560053268244440, 36104122322298952023290, 36106093550162218836750, 36109157585904198184910,
  36111124263859096432870, 36115115842031499228530, 36118118667701217078640, 36123111838794413151080, 36125080886284243449130,
  36126082952273742984700, 36127092663505847980190, 36129110312026011061500, 36130084772047562482080, 36131069109430641066030,
  36132081388662060358200, 36133084703460187983670, 36134124627535538141620, 36135080564860797674400, 36136075563819833820425,
  36137106526449459179100, 36138111336176065342200, 36139098236962241989030, 36140126675479664601750, 36141098343346224039580,
  36142119299490233293960, 36143088679812996713250, 36145117512572345860190, 36146129253770757622740, 36148115689356777920660,
  36149079925973404108160, 36151105436546622095050, 36152083452230841232500, 36153071954682965138534, 36154097424332601201370,
  36155098236962241989030, 36156106286917048954170, 36158101601684608201150, 36159115390827146423830, 36160150654432392585460,
  36161131195330902032320, 36162119973903041249270, 36163115842031499228530, 36164063047550002802010, 36169128682186619223260,
  36171116810529759127700, 36172143722960586986000, 36174118667701217078640, 36175099996886459412100, 36176100614969333130850,
  36179133606951470201200, 36180125004938817970100, 36182090615561721520060, 36184157585904198184910, 36186143722960586986000,
  36187086610415692036980, 36188138126802707631780, 36190093550162218836750, 36191119084428181084320, 36192122322298952023290,
  36193157585904198184910, 36194124263859096432870, 36195111838794413151080, 36196104804757605879730, 36198118465674143903450,
  36199131195330902032320, 36203087464751255121110, 36208088679812996713250, 36211121476725071742650, 36212113042431235649840,
  36213101202357504847460, 36214118465674143903450, 36215071366769176318500, 36225141491525073843900, 36228138126802707631780,
  36229083422119406255620, 36234088508351408363540, 36235118267647870941650, 36244138126802707631780, 36245118465674143903450,
  36249101202357504847460, 36255150654432392585460, 36259107613781460543760, 36264118267647870941650, 36275076267656348112950,
  36284146599781311503800, 36286115100951777691300, 36291083764660540809790, 36292110672425375893480, 36299101345729136311520,
  36300102573322092737640, 36302146599781311503800, 36305107347098989722150, 36310130505402187162800, 36314157585904198184910,
  36317091905125084065150, 36319098423883572110550, 36321104162561678536800, 36323146599781311503800, 36324157585904198184910,
  36328157585904198184910, 36330157585904198184910, 36332150654432392585460, 36335068873657754089380, 36339101381895541013410,
  36341106526449459179100, 36343141491525073843900, 36346133606951470201200, 36361110672425375893480, 36367091849102528578450,
  36368106526449459179100, 36372150654432392585460, 36381150654432392585460, 36382138126802707631780, 36386141491525073843900,
  36394115244839152212300, 36399146599781311503800, 36405099655768114343460, 36413139668309505904350, 36420095360141517471210,
  36424097797046549173690, 36426117882985062663690, 36428110672425375893480, 36433111838794413151080, 36434131936410623569550,
  36441150654432392585460, 36448130505402187162800, 36451131936410623569550, 36454111141995206771180, 36460143722960586986000,
  36461122032423583290760, 36468115244839152212300, 36470112152956375484860, 36474141491525073843900, 36479128682186619223260,
  36481143722960586986000, 36487110764591926942710, 36493083764660540809790, 36497146599781311503800, 36513111838794413151080,
  36517128682186619223260, 36523076084111501361650, 36524106771860548340280, 36530111046300696609670, 36538139668309505904350,
  36554077508904069344650, 36555131936410623569550, 36556116981474092720710, 36557061378637354150750, 36562107413105830035660,
  36571125397145949502900, 36575091345251920185970, 36587150654432392585460, 36594131195330902032320, 36600085172241364961730,
  36603133606951470201200, 36604110581100540260730, 36611110951513257064230, 36613139668309505904350, 36617091083113712310680,
  36626123246032153333440, 36628097873285800280280, 36629074926830856627430, 36635115100951777691300, 36637086946864583464230,
  36646129860016975787100, 36649080488335553643250, 36650087233218205373930, 36655083255150709199110, 36664081527004187653680,
  36667094094514284386930, 36671146599781311503800, 36674108987780154568180, 36676064326917072080350, 36677115842031499228530,
  36678120450183531141820, 36681083934102937974780, 36685150654432392585460, 36686111534202338304000, 36692157585904198184910,
  36703094360251798912070, 36705133606951470201200, 36710077508904069344650, 36711131936410623569550, 36712116981474092720710,
  36713107413105830035660, 36716083934102937974780, 36717125397145949502900, 36718087233218205373930, 36719091345251920185970,
  36720094360251798912070, 36721131195330902032320, 36722133606951470201200, 36724085172241364961730, 36726110581100540260730,
  36728150654432392585460, 36731074926830856627430, 36733091083113712310680, 36735111534202338304000, 36738139668309505904350,
  36739110951513257064230, 36740123246032153333440, 36741097873285800280280, 36742115100951777691300, 36743129860016975787100,
  36744080488335553643250, 36745086946864583464230, 36752094094514284386930, 36753083255150709199110, 36755081527004187653680,
  36756133606951470201200, 36757115842031499228530, 36758064326917072080350, 36760120450183531141820, 36761150654432392585460,
  36762157585904198184910, 36763084952608023416540, 36764127628581462644990, 36766098724863883683350, 36767106110959430050380,
  36771094059610234989250, 36774087180540296025340, 36776095241796941001200, 36777106286917048954170, 36779120697109657045530,
  36781098724863883683350, 36782120697109657045530, 36783106286917048954170, 36784097018064065898650, 36785096208633657322570,
  36786070240303298654980, 36793081717868846559100, 36797102451616736535080, 36798069232344486968850, 36801105382345947401660,
  36802146599781311503800, 36805114278570795321600, 36807075150449118902305, 36808103972982541090650, 36814092204505960508200,
  36816065136554030778080, 36817088135393560926560, 36820114411023062821800, 36824095931725655870700, 36825111046300696609670,
  36827073337318396050490, 36828074715653946534270, 36829119973903041249270, 36830071504602334101515, 36831101564715989387900,
  36834104355804406800830, 36836132736837700304910, 36837143722960586986000, 36838102905302786833600, 36841143722960586986000,
  36842081637060326019700, 36843098921223628851940, 36845111634705696839000, 36848099625326690531180, 36855089628846446449760,
  36857104162561678536800, 36861102696526936618040, 36864095889796873270350, 36865093517104337491760, 36866099414792598552870,
  36867100220181223392990, 36869122928545170187640, 36870090789912339741080, 36873069380386765654650, 36874098836596889664600,
  36875146599781311503800, 36877138126802707631780, 36879091121999049707620, 36880088508351408363540, 36882113765637851446100,
  36884092709064013338800, 36886141491525073843900, 36887129253770757622740, 36889111046300696609670, 36890066528330880347480,
  36893157585904198184910, 36894121750714813623800, 36895072741270530251720, 36896075189969655125220, 36897157585904198184910,
  36898098641875855536400, 36899071504602334101515, 36913080710516536168600, 36914073337318396050490, 36920087591679523105300,
  36923099325903124380410, 36924101096161816572840, 36926111838794413151080, 36930105274818029639030, 36932143722960586986000,
  36935095560549026305670, 36938068714902156948030, 36939065136554030778080, 36941096560318252049220, 36942075150449118902305,
  36943129860016975787100, 36944099444598879934250, 36946157585904198184910, 36947067531853795078485, 36948069232344486968850,
  36949119973903041249270, 36951097975850801952170, 36953097255041980196890, 36956098836596889664600, 36958113765637851446100,
  36960074715653946534270, 36963100818366175502100, 36965097255041980196890, 36968157585904198184910, 36969099414792598552870,
  36973157585904198184910, 36974103336404023370870, 36978101564715989387900, 36981110312026011061500, 36983105382345947401660,
  36984069380386765654650, 36986097975850801952170, 36988102451616736535080, 36991090016580305709370, 36992139668309505904350,
  36993103972982541090650, 36996095931725655870700, 36999143722960586986000, 37000150654432392585460, 37002081717868846559100,
  37003134560053268244440, 37007099325903124380410, 37009112152956375484860, 37011118873894089106000, 37013131936410623569550,
  37015150654432392585460, 37024157585904198184910, 37025150654432392585460, 37026123246032153333440, 37027086998322672998260,
  37030075471075033734250, 37034113277736209751780, 37038094270885699248000, 37040157585904198184910, 37041122032423583290760,
  37043150654432392585460, 37045118667701217078640, 37049139668309505904350, 37050126675479664601750, 37051102905302786833600,
  37057095124836543369270, 37061143722960586986000, 37066100415627184122690, 37070085634030996397820, 37071157585904198184910,
  37073108607506198675790, 37085124627535538141620, 37087157585904198184910, 37089101273786379971260, 37090157585904198184910,
  37094150654432392585460, 37096056222862512724660, 37101103879523916908280, 37103157585904198184910, 37108157585904198184910,
  37109094270885699248000, 37112120209208015351230, 37117077717455186571080, 37122106709940845861070, 37129091371847680543560,
  37138139668309505904350, 37145111434699029772300, 37159118873894089106000, 37165108607506198675790, 37168102905302786833600,
  37169150654432392585460, 37170120209208015351230, 37172126675479664601750, 37192150654432392585460, 37193124263859096432870,
  37194127140679820950680, 37195116154556934269570, 37197096493428370541250, 37200138126802707631780, 37202090359606249630420,
  37210127628581462644990, 37219126230962038893410, 37221126675479664601750, 37226146599781311503800, 37228122620828583520100,
  37230116810529759127700, 37231134560053268244440, 37232100123872292783370, 37233116477165556451790, 37237120697109657045530,
  37238120209208015351230, 37239118667701217078640, 37240077376627008369140, 37247157585904198184910, 37255116477165556451790]

def emitM11 : List Nat := [
  37257093835655999903940, 37259125397145949502900, 37264129253770757622740, 37266099902694240247190, 37275119084428181084320,
  37276115244839152212300, 37291079699643541934590, 37292116477165556451790, 37294157585904198184910, 37306119084428181084320,
  37312157585904198184910, 37313118465674143903450, 37319089528678664015050, 37321132736837700304910, 37322099237796827558850,
  37323099237796827558850, 37324061156238316717710, 37325073744715826275950, 37326078785422188469130, 37327083579698424473550,
  37328157585904198184910, 37329060861525901676700, 37332139668309505904350, 37335109383088542134530, 37336102252009310909700,
  37340116314560347733980, 37341101713417614182400, 37347114411023062821800, 37351112477309133016410, 37353127140679820950680,
  37356129253770757622740, 37365103075519662527900, 37369157585904198184910, 37376157585904198184910, 37377157585904198184910,
  37380157585904198184910, 37385141491525073843900, 37392138126802707631780, 37396124627535538141620, 37397141491525073843900,
  37406095621462920239700, 37411109302766825161900, 37414131936410623569550, 37415132736837700304910, 37424150654432392585460,
  37428093649996658678600, 37431143722960586986000, 37434097207194998963530, 37438141491525073843900, 37439123573930381563350,
  37440136791488781386550, 37445125805365894705460, 37449136791488781386550, 37457146599781311503800, 37463139668309505904350,
  37467117155391519839400, 37470128141514406520500, 37476132736837700304910, 37478136791488781386550, 37484125805365894705460,
  37485150654432392585460, 37492105328437461052900, 37496157585904198184910, 37499136791488781386550, 37504073396717976705940,
  37509093385954916713490, 37517157585904198184910, 37518150654432392585460, 37521150654432392585460, 37523126230962038893410,
  37526113765637851446100, 37528089673689570923050, 37530157585904198184910, 37532119084428181084320, 37539157585904198184910,
  37550111336176065342200, 37555104067322863424230, 37559085969684168793030, 37561105824406872446610, 37563131936410623569550,
  37569110764591926942710, 37573117332387290833410, 37574135613658424822710, 37575128682186619223260, 37586085367545945300410,
  37604146599781311503800, 37605135613658424822710, 37610116314560347733980, 37614127140679820950680, 37615157585904198184910,
  37624121476725071742650, 37628093128706004329120, 37633131936410623569550, 37636093583329745096700, 37638157585904198184910,
  37648094288695142957940, 37653136791488781386550, 37656104210523401171730, 37657150654432392585460, 37658109794669267069600,
  37659146599781311503800, 37664150654432392585460, 37666086197234198729670, 37670080187959614097900, 37672150654432392585460,
  37675080140206104639940, 37679096627658573862650, 37683109964164850207350, 37703128141514406520500, 37707098978041963526260,
  37709157585904198184910, 37716139668309505904350, 37723134560053268244440, 37740157585904198184910, 37749094486721415919740,
  37754157585904198184910, 37758130505402187162800, 37762114147849979648070, 37775138126802707631780, 37780107818566773979170,
  37782095744415288810070, 37794112812536053402840, 37795117882985062663690, 37798157585904198184910, 37799131936410623569550,
  37804122928545170187640, 37806080394605789117580, 37808135613658424822710, 37813143722960586986000, 37827133606951470201200,
  37832122620828583520100, 37841157585904198184910, 37847126675479664601750, 37848119744007859002300, 37853157585904198184910,
  37857093097010256716320, 37858109383088542134530, 37860157585904198184910, 37872157585904198184910, 37877157585904198184910,
  37881157585904198184910, 37912086610415692036980, 37927157585904198184910, 37931150654432392585460, 37934139668309505904350,
  37938136791488781386550, 37939157585904198184910, 37941070147398577882470, 37944133606951470201200, 37946129253770757622740,
  37950146599781311503800, 37956115689356777920660, 37969105328437461052900, 37984135613658424822710, 37987138126802707631780,
  37995097721384145340530, 38000127628581462644990, 38002124263859096432870, 38012103879523916908280, 38013111634705696839000,
  38014111336176065342200, 38015118667701217078640, 38023139668309505904350, 38024101713417614182400, 38025102252009310909700,
  38026109383088542134530, 38030129253770757622740, 38031112477309133016410, 38034127140679820950680, 38035114411023062821800,
  38037157585904198184910, 38039103075519662527900, 38041109302766825161900, 38043131936410623569550, 38044125805365894705460,
  38046124627535538141620, 38047086610415692036980, 38048141491525073843900, 38049128682186619223260, 38050093128706004329120,
  38052138126802707631780, 38053127628581462644990, 38054096627658573862650, 38055095621462920239700, 38056112812536053402840,
  38057132736837700304910, 38058132736837700304910, 38059157585904198184910, 38061157585904198184910, 38062141491525073843900,
  38063157585904198184910, 38064097207194998963530, 38065086197234198729670, 38066136791488781386550, 38067139668309505904350,
  38068143722960586986000, 38069122620828583520100, 38074128141514406520500, 38075111634705696839000, 38076125805365894705460,
  38077150654432392585460, 38078136791488781386550, 38079123573930381563350, 38080141491525073843900, 38081070147398577882470,
  38082146599781311503800, 38083093649996658678600, 38084135613658424822710, 38085117155391519839400, 38088150654432392585460,
  38089136791488781386550, 38094133606951470201200, 38102127140679820950680, 38106157585904198184910, 38107129253770757622740,
  38108093385954916713490, 38109110764591926942710, 38112131936410623569550, 38114113765637851446100, 38115150654432392585460,
  38119157585904198184910, 38120126230962038893410, 38123157585904198184910, 38124136791488781386550, 38125089673689570923050,
  38126109794669267069600, 38128157585904198184910, 38134073396717976705940, 38135157585904198184910, 38136115689356777920660,
  38138116314560347733980, 38142122620828583520100, 38143126675479664601750, 38144085969684168793030, 38145095744415288810070,
  38147135613658424822710, 38148146599781311503800, 38149098978041963526260, 38150157585904198184910, 38152105824406872446610,
  38155085367545945300410, 38156117332387290833410, 38159157585904198184910, 38160104067322863424230, 38161131936410623569550,
  38166157585904198184910, 38167157585904198184910, 38169096627658573862650, 38170150654432392585460, 38171146599781311503800,
  38174131936410623569550, 38175136791488781386550, 38177080140206104639940, 38179103879523916908280, 38180104210523401171730,
  38181094288695142957940, 38182080187959614097900, 38189150654432392585460, 38190094486721415919740, 38191121476725071742650,
  38192109964164850207350, 38193150654432392585460, 38196128141514406520500, 38197119744007859002300, 38199139668309505904350,
  38201157585904198184910, 38202130505402187162800, 38203134560053268244440, 38208157585904198184910, 38209114147849979648070,
  38210157585904198184910, 38215080394605789117580, 38220150654432392585460, 38223157585904198184910, 38224122928545170187640,
  38226135613658424822710, 38227143722960586986000, 38229107818566773979170, 38230109383088542134530, 38232157585904198184910,
  38234157585904198184910, 38236093097010256716320, 38237157585904198184910, 38238133606951470201200, 38250157585904198184910,
  38253157585904198184910, 38255136791488781386550, 38256139668309505904350, 38259138126802707631780, 38262124263859096432870,
  38263135613658424822710, 38271061134850706892820, 38272057071139895689140, 38275094129540589898950, 38278134560053268244440,
  38281098343346224039580, 38283067508559479389700, 38286146599781311503800, 38287125805365894705460, 38290094486721415919740,
  38291080497308187713160, 38292126675479664601750, 38296114147849979648070, 38305150654432392585460, 38307097596538578718080,
  38312117155391519839400, 38313118667701217078640, 38316146599781311503800, 38317127628581462644990, 38321123573930381563350,
  38326157585904198184910, 38331110312026011061500, 38344143722960586986000, 38346099325903124380410, 38348127628581462644990,
  38352118873894089106000, 38357128141514406520500, 38358097950110762000440, 38364071303926703593420, 38369139668309505904350,
  38370106110959430050380, 38376057071139895689140, 38378094129540589898950, 38379134560053268244440, 38381098343346224039580,
  38382085396807121994300, 38383097950110762000440, 38384125805365894705460, 38385143722960586986000, 38386094486721415919740,
  38387146599781311503800, 38388080497308187713160, 38389126675479664601750, 38391106834166045846640, 38392114147849979648070,
  38393094414257330712060, 38394117155391519839400, 38395074320735895789620, 38397118667701217078640, 38398127628581462644990,
  38401097596538578718080, 38402150654432392585460, 38404157585904198184910, 38405123573930381563350, 38406146599781311503800,
  38410157585904198184910, 38411134560053268244440, 38414110312026011061500, 38416139668309505904350, 38417127628581462644990,
  38420099325903124380410, 38423118873894089106000, 38425128141514406520500, 38428120209208015351230, 38431083108391397705820,
  38433118667701217078640, 38442127628581462644990, 38446125397145949502900, 38450072104801257675320, 38451061457225837214860,
  38452090665066773118620, 38453082525482413003690, 38454065353338225757620, 38459106227919827682290, 38463080578426253066930,
  38464093081199976743140, 38466101826413166721750, 38468097018064065898650, 38469062292146677325310, 38470076645172717491380,
  38471112699540500863510, 38472089584203515162900, 38473124627535538141620, 38475113397498120218930, 38476157585904198184910,
  38477090652667515485420, 38480068053382552094550, 38485124627535538141620, 38488124627535538141620, 38491135613658424822710,
  38493124627535538141620, 38495124263859096432870, 38498071392017160875830, 38499082525482413003690, 38500097822395105205560,
  38504157585904198184910, 38505081175061706435760, 38506132736837700304910, 38512090665066773118620, 38515089584203515162900,
  38517077194330293452530, 38518095028403780651230, 38519102696526936618040, 38520076645172717491380, 38525061457225837214860,
  38533110490602185061560, 38534085551848987353960, 38538083108391397705820, 38541115100951777691300, 38542065353338225757620,
  38543093160502533502920, 38544089981757287350630, 38548102411375233537840, 38549157585904198184910, 38551143722960586986000,
  38552138126802707631780, 38553114278570795321600, 38555062292146677325310, 38556099840388742740820, 38567130505402187162800,
  38568093160502533502920, 38570081175061706435760, 38577089981757287350630, 38580112699540500863510, 38582086743639977205740,
  38584086743639977205740, 38585157585904198184910, 38588143722960586986000, 38589118667701217078640, 38590078219302645930640,
  38592095340319905431300, 38593088659487786464020, 38596076901874612487910, 38597076920689293484970, 38598075035415170661950,
  38599134560053268244440, 38601136791488781386550, 38603118667701217078640, 38604108910559693629080, 38605104602730532704540,
  38607117155391519839400, 38613112699540500863510, 38614131195330902032320, 38617081022532533883070, 38619117155391519839400,
  38620090590900796568120, 38622090980152699788040, 38626080765689089916160, 38627078219302645930640, 38632077871594220491405,
  38634072149500583874050, 38639097950110762000440, 38642067664060576454785, 38643128141514406520500, 38646087171787560236800,
  38647076061043440382500, 38651063531768071231900, 38654108533156413800600, 38656098184191670980590, 38657117696063732542160,
  38658157585904198184910, 38660103032693044607900, 38662116154556934269570, 38663079925973404108160, 38664134560053268244440,
  38665093402254838822780, 38669099933993170336460, 38670116810529759127700, 38671128682186619223260, 38675133606951470201200,
  38678112926823011639070, 38684091031500694508430, 38686091682893716218050, 38695108533156413800600, 38701131195330902032320,
  38704139668309505904350, 38706088418753994648820, 38712101238008166492420, 38713115538978004275240, 38717117696063732542160,
  38722128141514406520500, 38724131195330902032320, 38728079018836267226500, 38738071789859682808560, 38739121210042600921050,
  38742081712799137958750, 38745076939539440442680, 38746121210042600921050, 38748076939539440442680, 38750080701350632685460,
  38752094396223060720570, 38753113277736209751780, 38754067150132657204100, 38761064023331729421530, 38771141491525073843900,
  38772129253770757622740, 38774133606951470201200, 38780157585904198184910, 38795126230962038893410, 38797096809481764694570,
  38799133606951470201200, 38808119084428181084320, 38816128682186619223260, 38819157585904198184910, 38829117512572345860190,
  38849128682186619223260, 38859097522372602167580, 38860113159391633281740, 38867104804757605879730, 38873138126802707631780]

def emitM12 : List Nat := [
  38876113277736209751780, 38878122322298952023290, 38881135613658424822710, 38886097522372602167580, 38887113159391633281740,
  38889104804757605879730, 38890138126802707631780, 38891122322298952023290, 38892113277736209751780, 38893135613658424822710,
  38899080376851678817120, 38901100921637317060590, 38902103205111108952940, 38907100921637317060590, 38911083915133599374790,
  38913104855908612547440, 38914094112012101624800, 38915126675479664601750, 38917099179487624450930, 38918081835187203109300,
  38920098184191670980590, 38922139668309505904350, 38924102134129753389280, 38928109383088542134530, 38929108169479972091850,
  38930126675479664601750, 38931092862441253175900, 38935113397498120218930, 38936084334414618629160, 38940111141995206771180,
  38945115689356777920660, 38950133606951470201200, 38957065617406380248070, 38968100252491429207440, 38969134560053268244440,
  38971103604277183007380, 38982129253770757622740, 38988095827231497127290, 38989084197022859796100, 38991087058693705861680,
  38995157585904198184910, 39000082804207256587060, 39003107818566773979170, 39006087437760685429460, 39013129253770757622740,
  39015083858440534141630, 39019120209208015351230, 39023085448221116998500, 39024124263859096432870, 39025157585904198184910,
  39029104855908612547440, 39030094112012101624800, 39031126675479664601750, 39033099179487624450930, 39034081835187203109300,
  39035098184191670980590, 39036139668309505904350, 39037108169479972091850, 39038083858440534141630, 39039092862441253175900,
  39041126675479664601750, 39042102134129753389280, 39044109383088542134530, 39045157585904198184910, 39046084334414618629160,
  39047113397498120218930, 39048100252491429207440, 39049115689356777920660, 39052111141995206771180, 39053120209208015351230,
  39055133606951470201200, 39057103604277183007380, 39059134560053268244440, 39062088700179602531270, 39063129253770757622740,
  39064095827231497127290, 39067157585904198184910, 39068087058693705861680, 39069084197022859796100, 39072107818566773979170,
  39074129253770757622740, 39076120209208015351230, 39078124263859096432870, 39080067894302866426690, 39087125805365894705460,
  39100119519279300481710, 39108094182311160907400, 39110150654432392585460, 39118067894302866426690, 39122125805365894705460,
  39125119519279300481710, 39128094182311160907400, 39129150654432392585460, 39131077761740729907570, 39134077761740729907570,
  39135083871011246042130, 39138114018815931288980, 39146157585904198184910, 39149157585904198184910, 39151093533619617876480,
  39154104602730532704540, 39156146599781311503800, 39164120450183531141820, 39165101025986089986390, 39166097207194998963530,
  39171157585904198184910, 39173122928545170187640, 39178081835187203109300, 39180157585904198184910, 39184105491042669770700,
  39187129253770757622740, 39192066085309787272380, 39201150654432392585460, 39208095580812457758010, 39214139668309505904350,
  39230112368018427694500, 39237146599781311503800, 39243139668309505904350, 39244150654432392585460, 39250111238614315888550,
  39269114018815931288980, 39274157585904198184910, 39276157585904198184910, 39277093533619617876480, 39278104602730532704540,
  39280097207194998963530, 39281101025986089986390, 39282120450183531141820, 39284146599781311503800, 39285157585904198184910,
  39286111238614315888550, 39290157585904198184910, 39292122928545170187640, 39295129253770757622740, 39296146599781311503800,
  39301150654432392585460, 39302095580812457758010, 39304139668309505904350, 39311112368018427694500, 39314146599781311503800,
  39316150654432392585460, 39318068852624303160300, 39319150654432392585460, 39321076490647600656180, 39333119744007859002300,
  39336110050002287121260, 39340064889439419449010, 39341133606951470201200, 39342121750714813623800, 39345157585904198184910,
  39347106405966074017350, 39361122032423583290760, 39376111838794413151080, 39378118073467012370640, 39381106227919827682290,
  39387089169749433408980, 39389124627535538141620, 39391101864363876407250, 39405105768068695264060, 39409146599781311503800,
  39423105712046139777360, 39425133606951470201200, 39438106587239919942910, 39446123246032153333440, 39449112047135282179500,
  39467121210042600921050, 39472089042359175634690, 39479112047135282179500, 39489118873894089106000, 39491130505402187162800,
  39492132736837700304910, 39493101564715989387900, 39498127140679820950680, 39500157585904198184910, 39501119519279300481710,
  39509117882985062663690, 39511076273538701223740, 39514083573591554054760, 39515126675479664601750, 39519113518711725542370,
  39522119084428181084320, 39524139668309505904350, 39525113518711725542370, 39530136791488781386550, 39532064889439419449010,
  39533133606951470201200, 39534157585904198184910, 39536106405966074017350, 39537101564715989387900, 39539122032423583290760,
  39540119084428181084320, 39542089169749433408980, 39543101864363876407250, 39545118073467012370640, 39547111838794413151080,
  39548124627535538141620, 39550106227919827682290, 39551126675479664601750, 39553119519279300481710, 39554109464060644460730,
  39556117882985062663690, 39557127140679820950680, 39558146599781311503800, 39559105768068695264060, 39562136791488781386550,
  39563133606951470201200, 39564076273538701223740, 39567105712046139777360, 39569106587239919942910, 39575112047135282179500,
  39578112047135282179500, 39579123246032153333440, 39580118873894089106000, 39582121210042600921050, 39584130505402187162800,
  39586132736837700304910, 39588113518711725542370, 39589113518711725542370, 39591139668309505904350, 39592083350219755593230,
  39599157585904198184910, 39606127140679820950680, 39608141491525073843900, 39612117512572345860190, 39635108987780154568180,
  39636067222463558902720, 39640059415871105041390, 39654138126802707631780, 39663120450183531141820, 39675141491525073843900,
  39683129253770757622740, 39699122928545170187640, 39711141491525073843900, 39714122928545170187640, 39717070436945695699960,
  39719094414257330712060, 39721134560053268244440, 39726157585904198184910, 39727150654432392585460, 39729095124836543369270,
  39739124263859096432870, 39740090878240989726160, 39745106771860548340280, 39746094468556106655760, 39748107957457895585840,
  39749133606951470201200, 39751136791488781386550, 39752146599781311503800, 39757133606951470201200, 39759098669462079927200,
  39764102291613323070670, 39768136791488781386550, 39770086912705711650150, 39791069306824568398990, 39799123912945898320160,
  39822125805365894705460, 39825122032423583290760, 39851128141514406520500, 39854080528775959240630, 39873134560053268244440,
  39881129860016975787100, 39882157585904198184910, 39908131936410623569550, 39912110581100540260730, 39914133606951470201200,
  39955131936410623569550, 39976157585904198184910, 39981094523151328704740, 39986121476725071742650, 39995157585904198184910,
  40008157585904198184910, 40009143722960586986000, 40018135613658424822710, 40023101309693061278540, 40060086912705711650150,
  40063123912945898320160, 40065069306824568398990, 40071125805365894705460, 40077122032423583290760, 40091128141514406520500,
  40092080528775959240630, 40096134560053268244440, 40100129860016975787100, 40104157585904198184910, 40110133606951470201200,
  40114131936410623569550, 40120110581100540260730, 40131131936410623569550, 40140121476725071742650, 40141094523151328704740,
  40142157585904198184910, 40149157585904198184910, 40150143722960586986000, 40151157585904198184910, 40158101309693061278540,
  40159135613658424822710, 40165100382786432110790, 40169134560053268244440, 40179075952191033585790, 40180093224400514490620,
  40198130505402187162800, 40201121476725071742650, 40219121476725071742650, 40227129860016975787100, 40230112152956375484860,
  40232110581100540260730, 40251071223705219806130, 40255133606951470201200, 40273089651242872384810, 40285083261066119013720,
  40288129860016975787100, 40289117155391519839400, 40300087050046926248130, 40306122928545170187640, 40361138126802707631780,
  40367112699540500863510, 40372085961929224627730, 40379122620828583520100, 40407125805365894705460, 40409157585904198184910,
  40434139668309505904350, 40441113518711725542370, 40442120950287736888440, 40474136791488781386550, 40475141491525073843900,
  40477157585904198184910, 40478125004938817970100, 40479100382786432110790, 40480134560053268244440, 40481090980152699788040,
  40483093224400514490620, 40485125805365894705460, 40486121476725071742650, 40489130505402187162800, 40490129860016975787100,
  40493110581100540260730, 40495112152956375484860, 40499121476725071742650, 40503157585904198184910, 40509133606951470201200,
  40510125004938817970100, 40511071223705219806130, 40514157585904198184910, 40515089651242872384810, 40516129860016975787100,
  40517083261066119013720, 40521117155391519839400, 40522122928545170187640, 40527087050046926248130, 40536122620828583520100,
  40540138126802707631780, 40548085961929224627730, 40550136791488781386550, 40555139668309505904350, 40557120950287736888440,
  40560113518711725542370, 40563141491525073843900, 40565122322298952023290, 40572103205111108952940, 40573099747652374887540,
  40575091505897945224040, 40584157585904198184910, 40594109302766825161900, 40595119084428181084320, 40599065416717324821850,
  40607104114828891010220, 40613088741037677757080, 40614088741037677757080, 40635080084062575606540, 40636072460078409599360,
  40643081687489076358340, 40644081687489076358340, 40654080825804877896030, 40657088538396498566530, 40660119973903041249270,
  40664080573902389610450, 40667096016114342329360, 40668123573930381563350, 40669106834166045846640, 40670070090164717355620,
  40674128682186619223260, 40680073924527033222090, 40681129253770757622740, 40692093402254838822780, 40695129253770757622740,
  40699157585904198184910, 40718093402254838822780, 40720113641412651460510, 40723089180438905298040, 40736100028482062315780,
  40763097399972053222560, 40778084380634575457500, 40779111942422283506550, 40784084380634575457500, 40786101601684608201150,
  40801092986859654409560, 40806135613658424822710, 40823129860016975787100, 40831101601684608201150, 40836092986859654409560,
  40840135613658424822710, 40844129860016975787100, 40845069080727980717710, 40848105656335689282800, 40852141491525073843900,
  40857069080727980717710, 40858141491525073843900, 40860110581100540260730, 40863110581100540260730]

/-- `emit_P['M']`, jieba/finalseg/prob_emit.py -/
def emitM : List Nat :=
  emitM0 ++ ( emitM1 ++ ( emitM2 ++ ( emitM3 ++ ( emitM4 ++ ( emitM5 ++ ( emitM6 ++ ( emitM7 ++ ( emitM8 ++ ( emitM9 ++ (
  emitM10 ++ ( emitM11 ++ (emitM12))))))))))))

def emitE0 : List Nat := [
  19968060449875362550730, 19969090758004123108070, 19971091988420052206590, 19975076553261129899350, 19976090238210026678200,
  19977079788298054388070, 19978053231354399975850, 19979057396447144098990, 19981074960129924133640, 19982083558214189353580,
  19984109835961918603040, 19985107805485045492320, 19987098890643518733570, 19988069226718624910430, 19989117815223236534270,
  19990076528262679283290, 19992096767266374401800, 19993114822794288005690, 19994051190184946581760, 19995096224854015273740,
  19996065896642674315040, 19997088037803671340140, 19998122224941202185010, 20004088604050082324350, 20005086630237581473770,
  20006088647996998298580, 20007102059859628950080, 20010046018480948928210, 20011126997529203454090, 20013054769388988293660,
  20016093053748539553070, 20018100040766967306400, 20020082325065612769870, 20024105111957862193570, 20025083764564652133520,
  20026050392772195920600, 20027065020835928086590, 20029077053654144310240, 20030071764296600499620, 20034173344819085750430,
  20035106611839408073900, 20037077846737909978500, 20039166413347280151000, 20040117286798422790460, 20041060579118888912555,
  20043079475865746992430, 20044109818525122554770, 20045146264317074728340, 20046072646328188236900, 20047087270824492726580,
  20048072824450489356770, 20050139004947040898980, 20051120822084805284130, 20052102878346307262870, 20054108792833452349220,
  20056100346845418168830, 20057117509855997933440, 20060166413347280151000, 20061093875105508814530, 20062134632808976671520,
  20063089769880959164820, 20064072896250105763905, 20065078114498286430520, 20070068674434636500440, 20073139004947040898980,
  20080088444543852315750, 20081079515336719925460, 20083107011634752946670, 20094103656315302330950, 20098079515336719925460,
  20102066587356704708570, 20104081106331865740680, 20105066999494524759620, 20107060253754230496050, 20108076248218530190720,
  20109166413347280151000, 20110052018513031344230, 20111099910556794276760, 20113078761883063760770, 20114086341341740609600,
  20116082685894409647340, 20117091162339818892980, 20120116996923054057940, 20121116996923054057940, 20122071233993682552570,
  20123055967502752047050, 20124152550403668952090, 20126071233993682552570, 20127166413347280151000, 20129080934183639560200,
  20130108792833452349220, 20132079347616154374600, 20133133454978620107700, 20134111258918824784150, 20135061146799605660170,
  20136109358869740398350, 20137086153279451125030, 20139090477086774437920, 20140065387709322987195, 20141088471295591698280,
  20142075895798551562870, 20146073597440345107490, 20147151372573312388250, 20149134632808976671520, 20150166413347280151000,
  20154047118459682706720, 20159107692169385396830, 20160095855905713195120, 20161086815347961811860, 20163126159830372799500,
  20164131913471821835110, 20165076342740074243480, 20166099775636662190230, 20167095032616939707510, 20170075172060528579810,
  20171089739425272041840, 20173124902948221164520, 20174078966076369833580, 20177100600023498011740, 20179103133979442859030,
  20180112364076264088040, 20181108636824047924420, 20182071635660126144030, 20183092465343539323740, 20184080589157516811540,
  20185091017758987140680, 20189117738002775595160, 20190109766396420669440, 20191142434394552167290, 20195059624520283096930,
  20196072179819519241640, 20197055956566940968880, 20200162358696199069360, 20202088305766114857430, 20204048165225018962720,
  20208092061917369679930, 20210104822393395231650, 20214062774520605123450, 20215075119332985442675, 20219066347266667644910,
  20221074407417074937960, 20223100753657804779430, 20225102278757708477420, 20227173344819085750430, 20233152550403668952090,
  20234102237857855962170, 20237083113148441238400, 20238133454978620107700, 20239090472051527604440, 20240093738093001869270,
  20241092264606871982980, 20247070054325462316290, 20248098636881343799820, 20249089399084307067170, 20250048103192344217070,
  20254108840114864308680, 20255081862297289122830, 20256077955574728266550, 20260079290682958797430, 20261139004947040898980,
  20262089248739278387440, 20263146264317074728340, 20266105963294139790860, 20267173344819085750430, 20271085177768929534480,
  20272098131639283758040, 20274173344819085750430, 20276091007131993579460, 20278119318045267027650, 20279166413347280151000,
  20280093442437228546820, 20282130169937950387330, 20284079543143773865950, 20285121249957557336230, 20291120769865365472620,
  20294088053601462935320, 20295173344819085750430, 20301058908100633693590, 20302081939204312067770, 20303071154539554587380,
  20304103488400909358360, 20305105111957862193570, 20307056565082154813180, 20308092517707743374640, 20309066938063669033810,
  20311126997529203454090, 20313079587118474751250, 20314117893044640954820, 20315087427379858945100, 20316056162266187619410,
  20318134632808976671520, 20319147695325511135070, 20320124592845853738920, 20323107483102537203700, 20324148495752587870430,
  20325136456024544611070, 20329102419081926003650, 20332121359848773092180, 20335157250439961409430, 20336141989876926458930,
  20339085105395819898000, 20342128346722382447780, 20346173344819085750430, 20347135502922746567830, 20348139004947040898980,
  20351071304824391490340, 20355108824329541378170, 20356117177108109084730, 20358049167797445287125, 20360111586146384692830,
  20363075575217625106745, 20365101908643058709230, 20369142434394552167290, 20372122407317077682820, 20375140386450425707140,
  20379075878821115760600, 20381094356995516047350, 20384091007131993579460, 20387106203113786655730, 20390134632808976671520,
  20391079234072067977810, 20392099277711783974030, 20393141564280782270980, 20394145618931863352630, 20396132740388980286250,
  20398107566205508539970, 20399095475149059601720, 20405097113288400981420, 20406106203113786655730, 20415077505799775037050,
  20417140022773983998400, 20419095617291921063020, 20420109210229514076880, 20421146954245789597860, 20426087963103107736150,
  20430144441101506788800, 20431115850889226667900, 20432111690640543436230, 20433120822084805284130, 20439086996834750845430,
  20440100613893125755210, 20442153885717595197310, 20445081302602176070380, 20446134224589031468980, 20447155427224393469880,
  20448091007131993579460, 20449071071370686438620, 20451140022773983998400, 20454148495752587870430, 20456166413347280151000,
  20457098394956746245100, 20458130169937950387330, 20461108377069183891800, 20462083733724226763900, 20463153885717595197310,
  20465139671860785885700, 20467162358696199069360, 20472132569444646693240, 20474157250439961409430, 20480139004947040898980,
  20485173344819085750430, 20486098394956746245100, 20489103133979442859030, 20491046018480948928210, 20492131297892891840780,
  20493089526503550894830, 20495157250439961409430, 20497048165225018962720, 20498083973948723985220, 20505065256028050337616,
  20506119318045267027650, 20508132914306407404940, 20510152550403668952090, 20511096948396207170320, 20513101490948929946270,
  20518105951452812178700, 20521102270564344643400, 20522117699615012523500, 20523089248739278387440, 20524136968957488486570,
  20525132914306407404940, 20526152550403668952090, 20538097655862451680480, 20540068381095974173650, 20542107777035524170020,
  20547162358696199069360, 20551088717449029548640, 20552162358696199069360, 20553081862297289122830, 20556166413347280151000,
  20558125982834601805480, 20559101475808881634130, 20570086668018838848700, 20572091240856534702690, 20581089460315930515310,
  20588135278194188047230, 20594173344819085750430, 20596079234072067977810, 20597134632808976671520, 20598102427397934798900,
  20599103875059164396260, 20603124592845853738920, 20605105963294139790860, 20607091100503353538860, 20613093184940975478060,
  20616173344819085750430, 20621131297892891840780, 20625082436009766361900, 20630146264317074728340, 20632108840114864308680,
  20633064930791280680980, 20645130718020315337280, 20648100435071304320620, 20652166413347280151000, 20653107483102537203700,
  20655135278194188047230, 20658101258815706148460, 20659077955574728266550, 20661097655862451680480, 20663079290682958797430,
  20667125304608638417870, 20670107777035524170020, 20674124592845853738920, 20677076342740074243480, 20681136456024544611070,
  20687077215472119157170, 20689099277711783974030, 20693099775636662190230, 20694140386450425707140, 20698097801470848492970,
  20705173344819085750430, 20711092340170175456820, 20718130037485682887120, 20721122045831936519700, 20723132914306407404940,
  20725128018824154217890, 20729075119332985442675, 20731109063766358904480, 20736088305766114857430, 20737173344819085750430,
  20738132740388980286250, 20740107692169385396830, 20742173344819085750430, 20744141564280782270980, 20745108377069183891800,
  20747135732817928814810, 20754102637578013147670, 20756148495752587870430, 20757145618931863352630, 20767091100503353538860,
  20769109888455477464490, 20778098636881343799820, 20786100435071304320620, 20791130169937950387330, 20795130718020315337280,
  20796166413347280151000, 20799063459571262872540, 20800119273101371149240, 20801105421374811042340, 20803063702916404440270,
  20804084902897823300750, 20805088223012589823520, 20806103646912386734550, 20807111441665027218960, 20808073201688009500310,
  20809068570812634026685, 20811071543479532074000, 20812112545487134794530, 20813076072543214542750, 20817112545487134794530,
  20818063459571262872540, 20820113355453466283610, 20821166413347280151000, 20822173344819085750430, 20823173344819085750430,
  20826069234842224412440, 20828117699615012523500, 20834115599303630306360, 20837059953266674890120, 20839066576737071242150,
  20840068933320783193650, 20841088604050082324350, 20843087669759032852180, 20844076831162530921455, 20845090216105142324280,
  20846122593080933412160, 20848074943069622506820, 20849080180712728717950, 20851061368701098911560, 20852076474726694843640,
  20853067739148646408470, 20854071416511640105025, 20855077748235891136980, 20856077640922920211795, 20857099314208174849540,
  20859075830971342488740, 20860125222975532026270, 20861095056473809869540, 20864113330670306138930, 20869066576737071242150,
  20870152550403668952090, 20872091817078558309700, 20873111838791401287650, 20874087281795420870300, 20876087281795420870300,
  20877083645584165835270, 20879173344819085750430, 20881116207491030656750, 20882103875059164396260, 20885110466233484132600,
  20887148495752587870430, 20889083452870852503980, 20891057888279129827330, 20892089871284964507050, 20896094989026619050800,
  20898133271487233425730, 20900114851571286281850, 20901122468855733426600, 20906141156060837068440, 20908096104772518989780,
  20911122846259013255070, 20912093395123858771660, 20914081923133167021960, 20915072202878248283895, 20916152550403668952090,
  20917066342982998504110, 20918100704517656755140, 20919093554855377209290, 20923104696341306041830, 20924173344819085750430,
  20925122718868755480770, 20928090547847746974170, 20932143900429294086030, 20934071147977156889330, 20935135968122902916750,
  20937093287812299125000, 20938173344819085750430, 20940104685908336916050, 20941104696341306041830, 20943095817170997237150,
  20945113734765689517710, 20955110672813600336800, 20956110672813600336800, 20957114428376967492720, 20960099436833868393680,
  20961090603799062827120, 20964087340511185887500, 20973104992973224277420, 20975088085272114902330, 20976100544736556908560,
  20977088085272114902330, 20979108437583740725360, 20982111441665027218960, 20984113916825334483430, 20985123305356026295850,
  20986055568794708944730, 20987071472073595560195, 20988162358696199069360, 20989111565377945244430, 20991109015418158358650,
  20992081147854416748370, 20993143900429294086030, 20995094973222585733700, 20998058165092023833020, 20999071472450066148480,
  21000173344819085750430, 21002090386837979389000, 21005134026562758507190, 21006118496849750843880, 21009089925949390588560,
  21010068346059039234800, 21015073893247208675230, 21016113305948414685050, 21017073013705882454100, 21018079756353282996370,
  21019091004477008830020, 21021080214946996387190, 21024137235639959308190, 21028080395246908789830, 21029064322208190288590,
  21032152550403668952090, 21033064488597054295010, 21034137235639959308190, 21035064322208190288590, 21037173344819085750430,
  21038122593080933412160, 21040053164994263016920, 21046060903644242913000, 21047096341867051549260, 21048087526252038330840,
  21049105857223610833650, 21050092755218908056260, 21051072442243748390650, 21056131003754039777840, 21058082340680159774650,
  21060173344819085750430, 21063073013705882454100, 21066097885637573657200, 21068151372573312388250, 21069059848403715216320]

def emitE1 : List Nat := [
  21070105857223610833650, 21072126523506814508250, 21073080661556874002080, 21076116855076704138380, 21078110806530969995710,
  21083079756353282996370, 21085123786548509737830, 21089157250439961409430, 21093123786548509737830, 21095079357550752426570,
  21097107762841057627750, 21098114022367211270340, 21102126523506814508250, 21103093466178124893560, 21106096819362158811230,
  21108131003754039777840, 21109091004477008830020, 21119104759168737836780, 21123068346059039234800, 21127079357550752426570,
  21128131003754039777840, 21129113305948414685050, 21133080661556874002080, 21137082340680159774650, 21147054696609028394090,
  21149110522151616790370, 21150077603321037595290, 21151071545375518276900, 21152063799979213124690, 21153061908969727943560,
  21154151372573312388250, 21155097406040639699260, 21160054867284150960920, 21161073850654241505160, 21162120769865365472620,
  21163101798665516613800, 21164173344819085750430, 21165134224589031468980, 21169088372873636654960, 21170090580872037117380,
  21171089620833020620400, 21180155427224393469880, 21182108698936048850820, 21183068879726340566085, 21185090580872037117380,
  21187098394956746245100, 21191085065739455964520, 21193115323635331979800, 21195097906790410735350, 21197166413347280151000,
  21200148495752587870430, 21202088620768999489400, 21205054867284150960920, 21206132236080444017330, 21207132236080444017330,
  21208117932183634166170, 21209061908969727943560, 21213078998786120167350, 21214089620833020620400, 21215110825780254091550,
  21218068879726340566085, 21220088091221544924120, 21232132401373463529430, 21233151372573312388250, 21235097906790410735350,
  21237088372873636654960, 21240110522151616790370, 21242114794099863726160, 21243100859778362044330, 21246114680138516417460,
  21247116373884220696400, 21248100859778362044330, 21252173344819085750430, 21253086169635359252780, 21254098328474506916300,
  21264123646686089990430, 21270057052233474918040, 21271062278268758994715, 21273106325215425725030, 21277134843343068649850,
  21280090631892555956330, 21281121470961027342880, 21283115293469396585560, 21290105221368143975640, 21294173344819085750430,
  21295090540242219924830, 21297173344819085750430, 21305093734604426916730, 21306053603413203921590, 21307091089788110081270,
  21310131913471821835110, 21311116207491030656750, 21312053603413203921590, 21313083115560404588250, 21315088366754309589960,
  21317134224589031468980, 21319079301384750310680, 21320081042408748925250, 21321107552306965649440, 21322083592311589314720,
  21326068199795650175890, 21327083763277733658010, 21329101995910570091600, 21330102878346307262870, 21331107621993658810360,
  21332083763277733658010, 21333078742392159839600, 21334086485591138843200, 21335065604544119217690, 21338092542444923583420,
  21340101024715769102860, 21342146264317074728340, 21344092517707743374640, 21345088991497436391270, 21346106461271946282810,
  21347162358696199069360, 21348141989876926458930, 21350103488400909358360, 21351110806530969995710, 21355079520386799992380,
  21358166413347280151000, 21359110729902242540010, 21360091219135103409000, 21361099542261201485850, 21363077350768498584770,
  21364098013231011194800, 21365096626551106962620, 21367084956400951437520, 21368109835961918603040, 21369120017631153096750,
  21370143387496350210530, 21371098013231011194800, 21375094096859946186100, 21378079538925610391760, 21380123238466144787870,
  21381082661660366282800, 21382077350768498584770, 21385095864533841426670, 21387080968182409499700, 21388104748670049208420,
  21389173344819085750430, 21397127701337171072070, 21400125469901657929980, 21401173344819085750430, 21402084543136606715950,
  21405159481875474551540, 21407071063055579580390, 21410104387992108271760, 21413102654584819967840, 21414103656315302330950,
  21416112823927396506270, 21417131913471821835110, 21421104748670049208420, 21422111881526509061470, 21426095864533841426670,
  21435061906655147523250, 21439068204682041673070, 21441142899594708516200, 21442097817198243608970, 21443097817198243608970,
  21448128458455388429030, 21449099073377751664290, 21450065548591741418550, 21451075099293441270580, 21452086995056815024230,
  21453083161498589823600, 21457065064577153109100, 21460090701185788433760, 21462068761040011108240, 21463071661332113728380,
  21464071262708177322835, 21465117140810428578930, 21467105079366850184500, 21471132569444646693240, 21472102043833984494650,
  21473151372573312388250, 21474096224854015273740, 21475059210011588333370, 21476078789234309663400, 21477075998864925212090,
  21478144441101506788800, 21480112252343258106780, 21481146954245789597860, 21482077967100446297970, 21483082297242991739260,
  21484095265652796486350, 21485112431720264973460, 21486142434394552167290, 21487075226163455862280, 21488071840170974733080,
  21489146954245789597860, 21490066160942524854760, 21491079274240995211740, 21494081436302131827230, 21495074435225066161860,
  21496061898124759307080, 21497092309876301940740, 21499145012685645188280, 21501126070940898627040, 21505099598528933560980,
  21507087730804624944860, 21508114236852645345160, 21510166413347280151000, 21512063194658421042590, 21513094453975015395300,
  21514109994276570769860, 21516062104152035495770, 21517061164108424730260, 21518055239883988064740, 21519093825705267208570,
  21520101979986999847960, 21521068974292453034350, 21522140386450425707140, 21523106687981907926360, 21525119969438288737250,
  21526173344819085750430, 21527112847484533430860, 21531083664679073298450, 21533129777730818854520, 21534113305948414685050,
  21535094510355544373040, 21536126523506814508250, 21539155427224393469880, 21542078838655865443500, 21543102336299996309940,
  21544085081876773337250, 21545143387496350210530, 21547089094040060666120, 21548084842509429862290, 21549117971476415565060,
  21550131755988252153720, 21551095830065905535880, 21553127095090952907730, 21555103923252028755740, 21556103923252028755740,
  21557109526658911689460, 21558121928183520723850, 21560093575431516156090, 21561105298673885124200, 21563105101082385319580,
  21564116996923054057940, 21566109835961918603040, 21568108683371843374240, 21570119969438288737250, 21574103414667856420830,
  21576114822794288005690, 21578070741244311102120, 21584121928183520723850, 21587141989876926458930, 21589129400327539026050,
  21590149365866357766740, 21591152550403668952090, 21592059286295359965040, 21595135278194188047230, 21596134843343068649850,
  21602123305356026295850, 21604130169937950387330, 21608079757215314805880, 21617128801346123215360, 21619076550758470811020,
  21621117585328054287270, 21623159481875474551540, 21628083803249419912700, 21629064137909856629800, 21632117585328054287270,
  21644075979348107945680, 21646118170290121103360, 21647120163619147308280, 21648089854707103990420, 21650111441665027218960,
  21653109577549606764160, 21657109509752736910380, 21658111753865200831100, 21659125222975532026270, 21661173344819085750430,
  21667162358696199069360, 21668140386450425707140, 21671125061681712727420, 21672157250439961409430, 21674125142003429700070,
  21676121087352348618430, 21677159481875474551540, 21679119095318910936410, 21681173344819085750430, 21682129524552739011620,
  21683117472332501747940, 21688124902948221164520, 21691142899594708516200, 21693101207136004564030, 21696107104166807751500,
  21697060382334481731500, 21700112847484533430860, 21703111198738101528520, 21704092174678208377330, 21705115263394185945990,
  21708173344819085750430, 21709069765803661988880, 21711155427224393469880, 21713109801118677776940, 21714131003754039777840,
  21715149365866357766740, 21719111606958046731070, 21721140386450425707140, 21722136209098418707360, 21725117623278763972800,
  21727108316918626594200, 21729059286295359965040, 21733074836570086222220, 21734134632808976671520, 21735115353892541145180,
  21736102164657041097100, 21737148495752587870430, 21738162358696199069360, 21741096962836642892650, 21742119007599050208040,
  21746103798430436940560, 21754137235639959308190, 21756114595511777230130, 21761121249957557336230, 21764152550403668952090,
  21766126340015427826270, 21767098636881343799820, 21775151372573312388250, 21776092446927327857240, 21777124746695042133720,
  21780162358696199069360, 21792159481875474551540, 21795139671860785885700, 21796096355457087615960, 21799113037966483137800,
  21802173344819085750430, 21804116475065522352250, 21806080544289241875600, 21807117854058236798240, 21809095124379003894250,
  21811142434394552167290, 21815159481875474551540, 21828149365866357766740, 21830077089901589012760, 21833132073475235299520,
  21834140022773983998400, 21839075722123579544530, 21845125469901657929980, 21846173344819085750430, 21854109801118677776940,
  21855095830065905535880, 21857100219284104724460, 21860152550403668952090, 21861116925748376369310, 21862110429127690167230,
  21863126340015427826270, 21866125895497802117940, 21868125723079737772880, 21869149365866357766740, 21870137509629701189340,
  21878121141260834967200, 21879124982000016235660, 21880102427397934798900, 21883132073475235299520, 21884123786548509737830,
  21886140386450425707140, 21888119454101787585430, 21890137791338470856300, 21891105036076739288650, 21892076712204873344010,
  21894135058405120859500, 21895123646686089990430, 21896155427224393469880, 21897106190985222403620, 21898095774307665430300,
  21903132569444646693240, 21905150318968155809980, 21912109210229514076880, 21913159481875474551540, 21914096355457087615960,
  21916084226823523855180, 21917097040206467914170, 21919152550403668952090, 21927140022773983998400, 21930102059859628950080,
  21932102878346307262870, 21934078742392159839600, 21937148495752587870430, 21938108316918626594200, 21939123040439871826080,
  21943119969438288737250, 21945149365866357766740, 21947104428560115227900, 21950137791338470856300, 21958135278194188047230,
  21959125723079737772880, 21966112847484533430860, 21969148495752587870430, 21970126340015427826270, 21971157250439961409430,
  21972134224589031468980, 21974126900910094336700, 21978134843343068649850, 21981130440224674266520, 21983166413347280151000,
  21985112894765945390320, 21987108437583740725360, 21988139332845269128890, 21989134426616104644180, 21990111158817888833140,
  21994127911871263050400, 21996173344819085750430, 22005173344819085750430, 22007133091302178398950, 22013102156556595129670,
  22016159481875474551540, 22022092309876301940740, 22025097325799486998770, 22030121869874317615900, 22031146954245789597860,
  22036129400327539026050, 22038126340015427826270, 22039100739593104851920, 22040116108968066226620, 22043102140375361825550,
  22047117434949280641870, 22052153885717595197310, 22055166413347280151000, 22057111606958046731070, 22061173344819085750430,
  22062159481875474551540, 22063102427397934798900, 22064126070940898627040, 22065105998902486020960, 22066117547520825888210,
  22068092892141919672400, 22069149365866357766740, 22070126431340263459000, 22075109079934511173530, 22079104602834131217490,
  22094126340015427826270, 22099116108968066226620, 22100130304168153708740, 22105159481875474551540, 22108112431720264973460,
  22109173344819085750430, 22112131003754039777840, 22114173344819085750430, 22116127701337171072070, 22117117623278763972800,
  22120066343208409033050, 22121130304168153708740, 22122116174542071688230, 22124116373884220696400, 22130140386450425707140,
  22132119969438288737250, 22134140763853705535610, 22136085081876773337250, 22139162358696199069360, 22144125222975532026270,
  22149121811903140772650, 22151106687981907926360, 22158126159830372799500, 22159119139469093027590, 22163118748963944308840,
  22165112431720264973460, 22179111775029229894880, 22182149365866357766740, 22184109509752736910380, 22195137791338470856300,
  22196086630237581473770, 22198153885717595197310, 22199108242235680518930, 22204114736956851091780, 22208149365866357766740,
  22210111775029229894880, 22216141989876926458930, 22218096715440581135100, 22223173344819085750430, 22225105998902486020960,
  22227137509629701189340, 22228124824516446554270, 22234112477071816627370, 22235082811462854090260, 22238075635547916233970,
  22240075539532634393640, 22241131600946386794070, 22242068865212128607070, 22244159481875474551540, 22250120311770005159670,
  22253073509362638683370, 22256092526977016400430, 22257120311770005159670, 22260073087767233146670, 22261129156413007784470,
  22266087199805346918090, 22269045050061288902680, 22270075406976211308790, 22271141989876926458930, 22275115599303630306360,
  22276136968957488486570, 22278093825705267208570, 22279129156413007784470, 22280089600050193604020, 22281173344819085750430]

def emitE2 : List Nat := [
  22283045050061288902680, 22285073087767233146670, 22290073509362638683370, 22291093825705267208570, 22294075406976211308790,
  22296068865212128607070, 22300173344819085750430, 22303075441630541445540, 22307092940350272719350, 22312058785713383323595,
  22313145012685645188280, 22314173344819085750430, 22317105545600011027910, 22319142899594708516200, 22320056120251197104670,
  22323093924751000851870, 22329151372573312388250, 22330057868652038148850, 22331105421374811042340, 22334102740055425752420,
  22336078624698195793110, 22338131297892891840780, 22343075123671145046530, 22346091124654713728490, 22349153885717595197310,
  22350112097985176808400, 22351084376201640946520, 22352094495289628152310, 22353103071673945352680, 22359076391261497326880,
  22362094859384261183650, 22363084721399450586960, 22364147695325511135070, 22365096162409566157280, 22366110768143206924050,
  22367115055362909648370, 22368116076341609878460, 22369086585770260039860, 22372098383845633990870, 22374086146744570970900,
  22376145012685645188280, 22378107834015735316400, 22383123172020717601200, 22387121928183520723850, 22391119873743778575750,
  22395146264317074728340, 22402108182888325320800, 22403142434394552167290, 22404142899594708516200, 22411067333074954369385,
  22412173344819085750430, 22418104020340170025350, 22419149365866357766740, 22421173344819085750430, 22426159481875474551540,
  22427124746695042133720, 22432127597709300716600, 22434120311770005159670, 22435104317391714164510, 22438111079452392875790,
  22439162358696199069360, 22441123786548509737830, 22443112823927396506270, 22445117661374048139460, 22446115114360130920250,
  22456117547520825888210, 22466132073475235299520, 22467096524603977481700, 22475113207667525322420, 22478065682731915075190,
  22479166413347280151000, 22482166413347280151000, 22484117893044640954820, 22485166413347280151000, 22489117623278763972800,
  22490131149742033989370, 22495069137195728787460, 22496113480299032906050, 22497117661374048139460, 22519101877097291224070,
  22521094762277263890140, 22522081147854416748370, 22530075246459121203710, 22531150318968155809980, 22533094859384261183650,
  22534093745073804945080, 22535151372573312388250, 22538123786548509737830, 22539166413347280151000, 22545117286798422790460,
  22549153885717595197310, 22557131149742033989370, 22558139671860785885700, 22561086456911237278270, 22564095040562907547130,
  22570098267918307551400, 22575108065239909524940, 22576089723064394254170, 22577070295707370904710, 22580057868652038148850,
  22581113632200687845820, 22596173344819085750430, 22602076391261497326880, 22603136968957488486570, 22604107905700630102520,
  22605155427224393469880, 22609101438058742428370, 22612087918159211857740, 22615096432818110521800, 22616097645542533323920,
  22618133271487233425730, 22622091292634821796310, 22626110768143206924050, 22628117623278763972800, 22635114318485751736780,
  22636140763853705535610, 22645094301470664899500, 22649117286798422790460, 22654119051362796206030, 22656120163619147308280,
  22659070358826600102430, 22661109958878303718620, 22665140022773983998400, 22666112823927396506270, 22674145618931863352630,
  22675089595437647396780, 22681084406346909047620, 22684116076341609878460, 22686088874966122023040, 22687108272041961900310,
  22696097375874704305000, 22697101163050701716360, 22702153885717595197310, 22707115055362909648370, 22718111079452392875790,
  22721084779634115551870, 22727084721399450586960, 22737122045831936519700, 22739080968182409499700, 22741121087352348618430,
  22744104020340170025350, 22745151372573312388250, 22750084376201640946520, 22751142899594708516200, 22754147695325511135070,
  22756089549428824576010, 22761096162409566157280, 22763066320917378131070, 22764166413347280151000, 22766091840139969510410,
  22767091840139969510410, 22768063643716549119205, 22771092635758197872260, 22774103125054855028840, 22777145012685645188280,
  22778103125054855028840, 22781094969275476939590, 22788067524279603565040, 22791064930791280680980, 22797073890370062784090,
  22799085173322838316370, 22804128685737899204600, 22805099517354588361330, 22806061150822239735170, 22810063238518863674310,
  22812079296444038747730, 22815074507379850755270, 22816074507379850755270, 22818095367798730583540, 22820152550403668952090,
  22821089399084307067170, 22823054677215287335095, 22825058964631962371990, 22826081792315029168200, 22827071431123035844690,
  22829127193613917337840, 22830072682379547398010, 22831123372696348109280, 22833078934267197883330, 22836059059711947471790,
  22839101908643058709230, 22840119499868457859540, 22841120017631153096750, 22842088465115758357100, 22846120017631153096750,
  22849131149742033989370, 22850136968957488486570, 22852133641899950229220, 22855080549886779105440, 22856092076681878489300,
  22857093231267994137590, 22859090527579181636530, 22862102352801650219510, 22863090172041423538080, 22864136968957488486570,
  22865108575095456853600, 22868096021126862906560, 22869117738002775595160, 22870084982533370490300, 22871083480353693037750,
  22872119731897428656200, 22874145618931863352630, 22880121639979135368930, 22882122910567916557980, 22885099055547137727710,
  22887099055547137727710, 22889131149742033989370, 22890088465115758357100, 22893173344819085750430, 22894090527579181636530,
  22899073774535891108860, 22900094227913878667060, 22902088277431750626650, 22904096871730762188050, 22908152550403668952090,
  22909065398573430483005, 22913140386450425707140, 22914072658189580799310, 22915094397910581494190, 22916114736956851091780,
  22918107024801311794140, 22919083055435163334310, 22920083316578320273710, 22922173344819085750430, 22925106586586869401960,
  22930113232147341708820, 22931120874578364145580, 22934132740388980286250, 22935166413347280151000, 22936151372573312388250,
  22937089333731961796090, 22941107024801311794140, 22942129036651097317300, 22947146954245789597860, 22948133091302178398950,
  22949106436396311564800, 22952098235041565609490, 22953151372573312388250, 22954135058405120859500, 22955139004947040898980,
  22958100060445556798820, 22962137509629701189340, 22969082821998412571370, 22971093534321489090870, 22974110903150079113080,
  22982092312901562892570, 22986118706501035494330, 22987066628324716735250, 22989111238818315503900, 22992080469953274222070,
  22993090116018868051380, 22994166413347280151000, 22995082143945255764240, 22996075434913872660620, 22999111238818315503900,
  23000151372573312388250, 23002112097985176808400, 23004119921476566102320, 23005127806050169745030, 23011114736956851091780,
  23013110245636303485280, 23014096871730762188050, 23016109509752736910380, 23019145618931863352630, 23020109923604898538920,
  23022173344819085750430, 23033152550403668952090, 23035092799592990377490, 23039104896664293667800, 23041081957449554585540,
  23043095322725923279260, 23044136968957488486570, 23045109560557249234570, 23046128346722382447780, 23047103341474482998130,
  23048150318968155809980, 23049137791338470856300, 23052132236080444017330, 23057129906764867213600, 23059135278194188047230,
  23064075980529861669580, 23067116407497697723450, 23068086024999702273500, 23071086631951818214060, 23072112386573461428200,
  23075108065239909524940, 23077102680149384380850, 23081116108968066226620, 23089116407497697723450, 23090128918306520847280,
  23092114182798459676090, 23094111258918824784150, 23100123786548509737830, 23105136968957488486570, 23110083379537604841860,
  23113108544373466483900, 23125108483211196309540, 23130086230385894995770, 23138104939353792863570, 23142083055435163334310,
  23143108967302588386430, 23144173344819085750430, 23146111238818315503900, 23149109560557249234570, 23156111565377945244430,
  23157121696959346515300, 23158115850889226667900, 23159090103881471246400, 23167106082485062162970, 23186102578280931310920,
  23194103913594857556150, 23195101468247444600890, 23198150318968155809980, 23207128918306520847280, 23210146954245789597860,
  23215139004947040898980, 23219112141844896240940, 23224173344819085750430, 23228146954245789597860, 23229083316578320273710,
  23230140763853705535610, 23233104020340170025350, 23234100510336798184120, 23236166413347280151000, 23241137509629701189340,
  23244113207667525322420, 23250128918306520847280, 23252118250935719470660, 23255135058405120859500, 23258153885717595197310,
  23267110245636303485280, 23270130718020315337280, 23273098705453041061200, 23281155427224393469880, 23285151372573312388250,
  23291114182798459676090, 23301145012685645188280, 23304128346722382447780, 23305130037485682887120, 23307121696959346515300,
  23308103341474482998130, 23319151372573312388250, 23321155427224393469880, 23329128918306520847280, 23332151372573312388250,
  23338118250935719470660, 23344111565377945244430, 23348149365866357766740, 23351120822084805284130, 23352115850889226667900,
  23360134426616104644180, 23372150318968155809980, 23376047888026579783160, 23379153885717595197310, 23380090186707766915040,
  23381100831369252028300, 23383072868074357264180, 23384077157473889848170, 23385089630083715082130, 23386115203513767499770,
  23387155427224393469880, 23388117547520825888210, 23389101822130525425050, 23391108792833452349220, 23394124669474581194620,
  23395082687049877902140, 23396117815223236534270, 23397173344819085750430, 23398054284271092577720, 23401089483089795972100,
  23403089630083715082130, 23406173344819085750430, 23416054284271092577720, 23418115506567262453060, 23421109392203104595950,
  23425079313747219433680, 23427084108907110020410, 23428146954245789597860, 23429097079117022843830, 23431086589183811873640,
  23432080146595259818640, 23433069209290212193340, 23435092231539052883100, 23436092533161308496100, 23439089914040374056620,
  23443128458455388429030, 23445119921476566102320, 23447080215849482737700, 23448073675032582577180, 23449095417201877585180,
  23450053315725067705470, 23451103142912002631190, 23452083249122370613460, 23453074813933136227675, 23454065105124195462920,
  23456111989170174933040, 23457094487765173320230, 23458076408515630273910, 23459106276195719722960, 23460074872472975897140,
  23461135058405120859500, 23462118622112349035690, 23466099661422222636630, 23467077294003918536720, 23468173344819085750430,
  23470077294003918536720, 23472107373362066883920, 23475074261063219661400, 23476099560981955783300, 23477108529047792986120,
  23478050927284618394880, 23480094162172224797700, 23481071344888250399014, 23485098716927511625960, 23486090525048497072850,
  23487095421329844620060, 23490104561554402837200, 23492122975293061614150, 23493108272041961900310, 23494078292356190577600,
  23495103332362865055670, 23500073867861013745960, 23504131003754039777840, 23506092733105488841230, 23507108377069183891800,
  23517117893044640954820, 23518105822115324333020, 23519074587767370513680, 23521114075558826046330, 23522117893044640954820,
  23525117971476415565060, 23526065105124195462920, 23527079313747219433680, 23528092192599360127150, 23529094487765173320230,
  23531083452870852503980, 23532098716927511625960, 23534147695325511135070, 23536114263989704061140, 23541111989170174933040,
  23542152550403668952090, 23544094416563823239250, 23545067972787592483970, 23546086959564319912800, 23547101244022804042560,
  23548065089402642756560, 23551094969275476939590, 23553086488970658983500, 23556077130257569818825, 23558077016882154618420,
  23559077016882154618420, 23560098890643518733570, 23561096355457087615960, 23562094465225719750980, 23563152550403668952090,
  23565067972787592483970, 23566065089402642756560, 23567073679726096227590, 23569067090896650597750, 23572071476215551752330,
  23574095160516365043880, 23576094301470664899500, 23578084174393478362770, 23581100739593104851920, 23588119183815063706240,
  23591108065239909524940, 23596100676545610544540, 23601082356319126322240, 23608096809869989137920, 23609111565377945244430,
  23610088629138951850820, 23612083738857697102500, 23613088987157158545360, 23614092056017664494050, 23615105763874041473130,
  23616070821348734098720, 23617106473733007085300, 23618072588914994392930, 23621081189550099115610, 23622079692768260379450,
  23624097481856014223230, 23625109923604898538920, 23626079692768260379450, 23627087624218157179660, 23629096809869989137920,
  23630122285364346744640, 23631100613893125755210, 23632135968122902916750, 23633104727705680943140, 23637059789473673570255,
  23644109923604898538920, 23646074772477405563780, 23648129650340561080220, 23649116441224542509830, 23650116441224542509830,
  23651157250439961409430, 23652072588914994392930, 23653111945973563487890, 23660074772477405563780, 23663112477071816627370]

def emitE3 : List Nat := [
  23665061832439293670920, 23673134632808976671520, 23678173344819085750430, 23679098688265984409880, 23681079860331344812310,
  23682144441101506788800, 23690152550403668952090, 23696126249517072627100, 23697119183815063706240, 23700113683351694513500,
  23702117585328054287270, 23703087394021785017340, 23704153885717595197310, 23705173344819085750430, 23706105857223610833650,
  23707076230026784224150, 23713091817078558309700, 23714162358696199069360, 23721081793371720668100, 23723144441101506788800,
  23725082848973154782560, 23729121415250576848330, 23731090726972290602920, 23733173344819085750430, 23735129036651097317300,
  23736078434840790840440, 23741150318968155809980, 23743173344819085750430, 23745136968957488486570, 23748162358696199069360,
  23755126159830372799500, 23762120114719294366360, 23769110447663376660470, 23777085419322943976630, 23780121526983582829580,
  23781123305356026295850, 23782117661374048139460, 23784112409121385299070, 23786122346154807508450, 23789113995877129554570,
  23792074900545771684600, 23796153885717595197310, 23798076230026784224150, 23803097335794490329600, 23805085419322943976630,
  23811141989876926458930, 23815106046578380855680, 23821141989876926458930, 23822119499868457859540, 23825173344819085750430,
  23828153885717595197310, 23830101705352242324970, 23831087394021785017340, 23833100600023498011740, 23835145012685645188280,
  23839173344819085750430, 23842123305356026295850, 23847143900429294086030, 23849112076127244608590, 23853145012685645188280,
  23854139671860785885700, 23860130169937950387330, 23869141989876926458930, 23879173344819085750430, 23883110173172218277600,
  23884113305948414685050, 23888105857223610833650, 23896121359848773092180, 23901166413347280151000, 23913104738182371267570,
  23915173344819085750430, 23916141564280782270980, 23937166413347280151000, 23938136968957488486570, 23940145012685645188280,
  23943117585328054287270, 23968121526983582829580, 23975162358696199069360, 23988173344819085750430, 23991136209098418707360,
  23992121359848773092180, 23994082848973154782560, 23996098688265984409880, 24005125061681712727420, 24011173344819085750430,
  24013105254426025320650, 24018117661374048139460, 24020125061681712727420, 24029080166333288835750, 24030063528228982755920,
  24033113812385742872600, 24034104780199239804580, 24037066535979430340710, 24038113037966483137800, 24039088389210172859200,
  24040110373725886411090, 24041121470961027342880, 24043128018824154217890, 24046084222780669545010, 24047173344819085750430,
  24048173344819085750430, 24049059038299710408230, 24050079109675163221420, 24051130718020315337280, 24052082929152808475470,
  24055096198044347741170, 24061142899594708516200, 24062099079328361777400, 24065078224825972162860, 24066054463237645738150,
  24067065717820412045390, 24069086561907968164780, 24070095933828185396790, 24072067342785506019450, 24076097411077154537530,
  24080105752266379113510, 24081144441101506788800, 24084136968957488486570, 24085105614015329195080, 24086105036076739288650,
  24088106498701809071170, 24089146264317074728340, 24090117250101133900840, 24091117286798422790460, 24092098534897457055180,
  24093069002190569653040, 24101086561907968164780, 24102072587652235262560, 24103126900910094336700, 24107067342785506019450,
  24109070305082894779160, 24110090317203278709940, 24115105752266379113510, 24118072587652235262560, 24119148495752587870430,
  24120063612274574846430, 24123159481875474551540, 24124130440224674266520, 24125099871822078318800, 24128126900910094336700,
  24130141156060837068440, 24132127495144299044720, 24133084615742343151990, 24140148495752587870430, 24148120114719294366360,
  24149089609281673604180, 24151130440224674266520, 24152159481875474551540, 24155146264317074728340, 24159098534897457055180,
  24161133641899950229220, 24162114909374915436850, 24163078224825972162860, 24171090317203278709940, 24178078170981106684600,
  24179063788973211122750, 24180052573796443418300, 24182088647996998298580, 24184090332084233836960, 24185078170981106684600,
  24186117286798422790460, 24187104010588828443280, 24188098506752209092080, 24189108021476163526950, 24190099436833868393680,
  24191085080408667924650, 24196087272652145112190, 24198080918679760485650, 24199119363192070572910, 24202084324345629547660,
  24207078529700162740700, 24208109425647951824420, 24209143900429294086030, 24211080826157897703630, 24212068287844304711065,
  24213072189521977958800, 24214141989876926458930, 24215081529526184529800, 24217082143945255764240, 24218109047624305359070,
  24220061397527078707850, 24222114345845549925520, 24223105591158176386520, 24224146954245789597860, 24229140763853705535610,
  24230055948592140913080, 24231075993538378168160, 24235080826157897703630, 24237078401663260784070, 24245104696341306041830,
  24246119454101787585430, 24247079502722666198910, 24248101979986999847960, 24254162358696199069360, 24257127701337171072070,
  24258104387992108271760, 24264103656315302330950, 24265102992133092939470, 24266094666104181787210, 24273152550403668952090,
  24275109063766358904480, 24278162358696199069360, 24281173344819085750430, 24282112823927396506270, 24283135968122902916750,
  24285111881526509061470, 24287082143945255764240, 24288079538925610391760, 24289143900429294086030, 24290105591158176386520,
  24291085080408667924650, 24297133832381899936160, 24298133832381899936160, 24300109425647951824420, 24307082661660366282800,
  24310091262625250782090, 24311079299737575212250, 24314068808807136923970, 24319157250439961409430, 24320064278839322122000,
  24321133832381899936160, 24322081946713027893880, 24323086669739564999380, 24324099223215736298390, 24327173344819085750430,
  24328119499868457859540, 24330107237858638572840, 24331126900910094336700, 24335062429985062361210, 24339106842028599876220,
  24341085651302007760730, 24343117623278763972800, 24344106751879888914070, 24347111860136126573980, 24351074488528743402290,
  24352072070111573272620, 24354159481875474551540, 24357117140810428578930, 24358103534761678533140, 24359115414683001909000,
  24361124218270228389920, 24365132914306407404940, 24367106227415135188640, 24369084772514143730970, 24373072070111573272620,
  24375070441345922563210, 24377074186706063500840, 24378070441345922563210, 24380103277866817380030, 24392074186706063500840,
  24394173344819085750430, 24396117140810428578930, 24398106227415135188640, 24402091361175186074240, 24403069504217754439460,
  24405079752044238244900, 24408166413347280151000, 24413128236224020581930, 24417173344819085750430, 24418072904501110466070,
  24420109492875095773190, 24421103703462961567980, 24422103703462961567980, 24423157250439961409430, 24425082363029034871910,
  24426094843783633994610, 24428097864529386400300, 24429129524552739011620, 24432108498466729397920, 24433078061242643510070,
  24441081436302131827230, 24443091178534154416010, 24444120512781798370550, 24448073515826166147540, 24449076280438382374830,
  24452081184577201305630, 24453078168039064886390, 24457132914306407404940, 24458109276019225057300, 24459068071972536137630,
  24460146264317074728340, 24464107455554310415240, 24465081184577201305630, 24466088119032448824690, 24469127911871263050400,
  24471058255745052134000, 24473112163847105336960, 24478078966076369833580, 24480127911871263050400, 24481089713727325415210,
  24488123440493217963070, 24490100739593104851920, 24494083865458018663740, 24501127495144299044720, 24503071682839976226920,
  24505091178534154416010, 24509091886422956382030, 24515059087823890671590, 24517080056476425510720, 24518091843026388927170,
  24524091851690649397000, 24525093882182649945030, 24527155427224393469880, 24529130169937950387330, 24530135058405120859500,
  24534115787396949881320, 24535071374669011716160, 24536102469082030170710, 24537082158183251707650, 24541159481875474551540,
  24544083907146458404060, 24545117472332501747940, 24548166413347280151000, 24551098289896338376190, 24554134632808976671520,
  24555074525755640725200, 24557166413347280151000, 24561113158886940788100, 24565074776667642373460, 24571138081213839588820,
  24573103618756572732900, 24574120717917196701600, 24576089394563511330140, 24577071264551665207120, 24578166413347280151000,
  24581122593080933412160, 24582126805215584175200, 24591129650340561080220, 24594086808365940233060, 24596131003754039777840,
  24597076683636146171080, 24598097365839580532600, 24603166413347280151000, 24604095791430957285420, 24605075596234986360960,
  24608117360599495766690, 24609098467481471386000, 24613083153020420600200, 24614113037966483137800, 24615059000370386784640,
  24616095981748120267590, 24617127393620584404540, 24618083086655169480160, 24623107264812832789570, 24629134026562758507190,
  24635097661026407385220, 24636143387496350210530, 24639138379743471085630, 24642131755988252153720, 24643118496849750843880,
  24646099455358109566060, 24651097650701161243330, 24653151372573312388250, 24656096506179283186140, 24658099455358109566060,
  24661112296886761600590, 24665115850889226667900, 24666159481875474551540, 24669173344819085750430, 24674129777730818854520,
  24676120017631153096750, 24677100718533076008030, 24680093317877462911060, 24681087677369383295600, 24682126431340263459000,
  24684125386913629783030, 24685109459205030294150, 24687067669670740528230, 24688103405489333518550, 24691111258918824784150,
  24694089024109705756410, 24696133832381899936160, 24697141564280782270980, 24698115599303630306360, 24699137791338470856300,
  24700096819362158811230, 24701147695325511135070, 24703120822084805284130, 24708098072259892012600, 24709095269718663588510,
  24713086783967182921880, 24716137509629701189340, 24717107428081765663870, 24722149365866357766740, 24724097275973773554140,
  24726126249517072627100, 24730136709202624453980, 24731149365866357766740, 24733135278194188047230, 24735095136410286677010,
  24736103932918535066700, 24739097943915884297180, 24742095269718663588510, 24744173344819085750430, 24747162358696199069360,
  24748109047624305359070, 24751114539489221743430, 24754106215257078979730, 24756113455204916851800, 24757122593080933412160,
  24758098034655764971280, 24760115692908057902000, 24763125386913629783030, 24764119363192070572910, 24773064117500027543790,
  24775162358696199069360, 24778089783968775535640, 24779155427224393469880, 24785093685891734905140, 24789104854156259415860,
  24792117434949280641870, 24794113505456278878540, 24796086531311309925240, 24799112660563203309340, 24800088539527015303980,
  24801089024109705756410, 24806162358696199069360, 24807095072410068222320, 24808106946060747485080, 24809102188997823905900,
  24811111544652549224700, 24813120980399457450950, 24814107805485045492320, 24815088430168657315380, 24816122846259013255070,
  24817096819362158811230, 24818147695325511135070, 24819066023333741257350, 24820128458455388429030, 24822110466233484132600,
  24825118050528210636200, 24826129906764867213600, 24827137791338470856300, 24833094305162745428780, 24838142899594708516200,
  24840097869802257600770, 24841125142003429700070, 24846140386450425707140, 24847063362729604206410, 24853118090289694432600,
  24858106893909390694000, 24859151372573312388250, 24863077901724301957660, 24867128236224020581930, 24868096962836642892650,
  24870145012685645188280, 24871098229572601841790, 24872162358696199069360, 24875132740388980286250, 24884126805215584175200,
  24887115599303630306360, 24894120717917196701600, 24895080322918829689820, 24904103405489333518550, 24906173344819085750430,
  24907071264551665207120, 24908103125054855028840, 24910097542924906305030, 24913110083324354199450, 24917099604800492248840,
  24920106946060747485080, 24922120980399457450950, 24927133832381899936160, 24930083801957513703300, 24931088430168657315380,
  24935087091520585542280, 24936097594102090674820, 24939166413347280151000, 24942079508607244570560, 24944093311188499450960,
  24950080918679760485650, 24951146954245789597860, 24962098289896338376190, 24970111544652549224700, 24974120212759295332570,
  24976095791430957285420, 24977104992973224277420, 24978145012685645188280, 24986107805485045492320, 24996096962836642892650,
  24999157250439961409430, 25000140022773983998400, 25001125061681712727420, 25003114539489221743430, 25004119778956339030320,
  25010099661422222636630, 25014091843026388927170, 25015150318968155809980, 25022100192635188220680, 25026108935353679421230,
  25031111258918824784150, 25032107251326654076640, 25033068287844304711065, 25035131448271665486180, 25036138379743471085630,
  25037162358696199069360, 25041124592845853738920, 25042115233409155983430, 25044162358696199069360, 25055143387496350210530]

def emitE4 : List Nat := [
  25059124592845853738920, 25062125142003429700070, 25064141564280782270980, 25074102188997823905900, 25077150318968155809980,
  25078115233409155983430, 25079089394563511330140, 25080109047624305359070, 25082155427224393469880, 25084095072410068222320,
  25086110083324354199450, 25087111400765174703710, 25088097650701161243330, 25096099097201467518360, 25098142434394552167290,
  25100130169937950387330, 25101123305356026295850, 25102118291503726426810, 25103086184378584136400, 25104054884613316265400,
  25105091860362423318080, 25106093307845694806750, 25110105155578432995220, 25111135502922746567830, 25112066853733282182680,
  25114098356121745981130, 25119109459205030294150, 25121152550403668952090, 25127135502922746567830, 25129133454978620107700,
  25130097310825688343740, 25132133454978620107700, 25134110961572835355360, 25136066853733282182680, 25138086184378584136400,
  25139132401373463529430, 25140101017487723974280, 25142073070083762579250, 25143073070083762579250, 25150120927348935154020,
  25151078042343168523440, 25152073267694849813830, 25153106046578380855680, 25159096833617328723440, 25160115203513767499770,
  25161111648711760835880, 25163062806596983822630, 25165071415762912940850, 25166093769545063442710, 25169108094522507315820,
  25170149365866357766740, 25171085246191031959860, 25176085037927098140460, 25187100246004227502570, 25191101877097291224070,
  25193105625463527354420, 25195103609388890549030, 25196084265988946327970, 25197113890612999684700, 25198098908182254594530,
  25199103089435939365220, 25200090302344434965700, 25203155427224393469880, 25206108452769772497270, 25209079400715092707900,
  25214089699738048244550, 25215088334180990886900, 25216075417024780233370, 25220112454370331281980, 25226084440713566007620,
  25233107251326654076640, 25234137235639959308190, 25235110484838140661790, 25237103665727067731600, 25238099567230003471710,
  25239085458884772813080, 25240088560295454752380, 25242094279346762070070, 25247141564280782270980, 25249150318968155809980,
  25250109543593716752800, 25252071548409844110905, 25253070295707370904710, 25259112847484533430860, 25260136968957488486570,
  25265098523629850229280, 25269107706263820429160, 25273110155137948286090, 25276100938322143195780, 25277153885717595197310,
  25279138687460057753180, 25282123716372783151360, 25285084576581453944420, 25286126159830372799500, 25289080714542143198550,
  25292107117455846252040, 25293102965759451278610, 25294157250439961409430, 25296109749080399026670, 25298109079934511173530,
  25299101574631426651440, 25300082739184619170900, 25302125222975532026270, 25303116749996928154220, 25304125723079737772880,
  25305113505456278878540, 25306137235639959308190, 25307084775361524160240, 25308092748895796875000, 25311093776547864849340,
  25314105522898525682520, 25315132569444646693240, 25317098450698250663250, 25318103451466426004850, 25319162358696199069360,
  25320106777553843966530, 25321079412368165443254, 25324071737972645998545, 25325121470961027342880, 25327115630407854450270,
  25329111796238145586260, 25331093324570903589340, 25332129906764867213600, 25334173344819085750430, 25340118748963944308840,
  25341151372573312388250, 25342095108359777400920, 25343100333341027190120, 25345066387487256934080, 25346093311188499450960,
  25351082945740490004030, 25352140386450425707140, 25353116011406316772980, 25361115414683001909000, 25366112431720264973460,
  25370111902962744493980, 25371116011406316772980, 25373116784900977551900, 25374130718020315337280, 25375121033732917204570,
  25376107024801311794140, 25377098671108416574840, 25379140022773983998400, 25380104098695125264840, 25381077588042195814760,
  25384136456024544611070, 25386130718020315337280, 25387116340383351843570, 25391095314552649428280, 25394131149742033989370,
  25402104010588828443280, 25405173344819085750430, 25406121033732917204570, 25413173344819085750430, 25414122782361032267350,
  25417104875387689896640, 25420166413347280151000, 25423119731897428656200, 25424114345845549925520, 25429089155632864271470,
  25438103788893001787470, 25439093571999218198930, 25441152550403668952090, 25442080691799785248860, 25443128126933315260040,
  25447117397705289732050, 25449151372573312388250, 25454067768479128287030, 25463092783722490299830, 25466132073475235299520,
  25467147695325511135070, 25475103609388890549030, 25476150318968155809980, 25479121869874317615900, 25480081959598243893340,
  25481088485730071985720, 25484086026613256129370, 25487155427224393469880, 25490080409959555121930, 25494119826237750989770,
  25496094096859946186100, 25497140022773983998400, 25499093311188499450960, 25504107819740215404530, 25505092908185561811010,
  25506096776718170946660, 25507131297892891840780, 25509071962780283720900, 25511090967381046841100, 25512109259531175155460,
  25513113606722967057830, 25514097305839400531640, 25516128571450940968380, 25520157250439961409430, 25527110173172218277600,
  25536132569444646693240, 25540132740388980286250, 25542132236080444017330, 25545142899594708516200, 25549137791338470856300,
  25551106573984473279090, 25552086463652053172200, 25554112942271972976300, 25558117213538021869730, 25562084265988946327970,
  25563080691799785248860, 25569083430440936558160, 25571130440224674266520, 25577146954245789597860, 25581124592845853738920,
  25582077588042195814760, 25588088599874716919210, 25590152550403668952090, 25597108168106356627690, 25600166413347280151000,
  25601109801118677776940, 25602147695325511135070, 25605124441327803532900, 25613093571999218198930, 25615107777035524170020,
  25616117104644023877050, 25619128918306520847280, 25622099585997603600300, 25623128126933315260040, 25628166413347280151000,
  25630130037485682887120, 25632173344819085750430, 25633130578157895589890, 25638159481875474551540, 25642139004947040898980,
  25644121754266093605140, 25645120980399457450950, 25654109543593716752800, 25658116108968066226620, 25661166413347280151000,
  25665166413347280151000, 25668101221874400747020, 25670107011634752946670, 25671099585997603600300, 25674103646912386734550,
  25684139004947040898980, 25688110961572835355360, 25694126616530741131380, 25695147695325511135070, 25703127095090952907730,
  25705096734255262132150, 25709162358696199069360, 25711111902962744493980, 25718141564280782270980, 25720098820794573514060,
  25721122782361032267350, 25730155427224393469880, 25733173344819085750430, 25735124592845853738920, 25736103788893001787470,
  25744099511137615826610, 25745099511137615826610, 25746109594570887469480, 25747107024801311794140, 25749173344819085750430,
  25758098202272557586330, 25764117738002775595160, 25765106777553843966530, 25771094279346762070070, 25773080896434961912930,
  25774128346722382447780, 25776117585328054287270, 25778108094522507315820, 25783143900429294086030, 25787130718020315337280,
  25788107305380839745700, 25790116784900977551900, 25791152550403668952090, 25793098450698250663250, 25794130718020315337280,
  25797136968957488486570, 25799079412368165443254, 25802071472073595560195, 25803098671108416574840, 25805090487164880607140,
  25806108999353897875900, 25810116749996928154220, 25812084576581453944420, 25816138687460057753180, 25818067768479128287030,
  25822124669474581194620, 25824104098695125264840, 25826130169937950387330, 25830105057698369333590, 25836093776547864849340,
  25840162358696199069360, 25841109801118677776940, 25842110173172218277600, 25844105625463527354420, 25847143900429294086030,
  25850107011634752946670, 25851124669474581194620, 25854090302344434965700, 25856114263989704061140, 25871105522898525682520,
  25874124292071301366140, 25876103451466426004850, 25880120980399457450950, 25881166413347280151000, 25884116108968066226620,
  25885101221874400747020, 25890124292071301366140, 25891116011406316772980, 25892103646912386734550, 25898124441327803532900,
  25900108168106356627690, 25903081232419413560240, 25910078600096046073410, 25912147695325511135070, 25913084400859187686130,
  25915080088504922641270, 25918072365795515575780, 25919065625502336219800, 25925086780486500673020, 25928076343352800569460,
  25932087809567879114160, 25935081616357410264420, 25937085983138427168160, 25941137791338470856300, 25942128685737899204600,
  25943077252983047995830, 25944117140810428578930, 25945071095632435407605, 25947106386829915165520, 25949129400327539026050,
  25950115203513767499770, 25954076641251138861930, 25955083650672577088700, 25958093917643680012530, 25961173344819085750430,
  25964087320288732079820, 25968063644749109180690, 25970118414204652344960, 25972076580831797154100, 25973087809567879114160,
  25975122407317077682820, 25976063644749109180690, 25986106386829915165520, 25987109243070266088780, 25991066049785024045460,
  25995101258815706148460, 25996085631117232644240, 26000093037469844765020, 26001102757237560563800, 26003118834434550093440,
  26005118834434550093440, 26007078483296367175670, 26009066795075151410110, 26011140386450425707140, 26012099743779355858920,
  26015145012685645188280, 26020082563024402012000, 26021097196765438639700, 26023112431720264973460, 26025123928394859657400,
  26027162358696199069360, 26028123928394859657400, 26029069839395481715885, 26031069003366936445570, 26032069994392381710110,
  26039069839395481715885, 26041057024143319108010, 26044149365866357766740, 26045071321127333335350, 26049089360722531487720,
  26051153885717595197310, 26053100530962450047610, 26054166413347280151000, 26059091731068853775570, 26060162358696199069360,
  26062128918306520847280, 26063062145397742109240, 26066157250439961409430, 26070145012685645188280, 26071083735007347314830,
  26080086391425317753330, 26082142899594708516200, 26085063327321286351020, 26086084566815146924700, 26087087201620064280830,
  26088089954589028302840, 26089081430185923685500, 26092096938780821814100, 26093093128973751199360, 26095136709202624453980,
  26097098908182254594530, 26101149365866357766740, 26102054757634943832800, 26103114623641190996290, 26104155427224393469880,
  26106099375333059540300, 26107145618931863352630, 26112127495144299044720, 26114095925140087543590, 26115166413347280151000,
  26118101892857735778720, 26119173344819085750430, 26121159481875474551540, 26122108021476163526950, 26124076230026784224150,
  26126060628385076222795, 26127103062804765170400, 26131071735266756807520, 26132117815223236534270, 26133107992406375613840,
  26138173344819085750430, 26143073342760771624790, 26144083185761612766170, 26149082439391000544560, 26151108513745571178450,
  26152157250439961409430, 26157104633906139644970, 26159050390439919722800, 26160173344819085750430, 26161112207997287428130,
  26164162358696199069360, 26165122224941202185010, 26166131600946386794070, 26170162358696199069360, 26172116407497697723450,
  26174080447759812181210, 26177144441101506788800, 26178054757634943832800, 26179097991852061309550, 26181150318968155809980,
  26185089753470218170830, 26186173344819085750430, 26187089753470218170830, 26188098175046839707230, 26191121811903140772650,
  26194111319463913871210, 26195092014816899914300, 26196116207491030656750, 26197103018576475470380, 26198098890643518733570,
  26199109835961918603040, 26201173344819085750430, 26202084662093995772350, 26205116407497697723450, 26206162358696199069360,
  26207118580183566435340, 26212108242235680518930, 26214117360599495766690, 26216090292450790824520, 26222094075183637120660,
  26223077540273057936220, 26224098614128205428460, 26228106764708627042960, 26230089129189481740560, 26231136709202624453980,
  26234086291507750434120, 26238166413347280151000, 26242108138607810163470, 26244118332236980303160, 26247100606955907301500,
  26248103018576475470380, 26249098890643518733570, 26252173344819085750430, 26256151372573312388250, 26257105477649579699640,
  26261173344819085750430, 26262094801006979226780, 26263087064631620699210, 26264155427224393469880, 26274100938322143195780,
  26280133641899950229220, 26283108138607810163470, 26286125895497802117940, 26289122224941202185010, 26292094194989027266500,
  26297138081213839588820, 26302148495752587870430, 26308116207491030656750, 26312173344819085750430, 26313092014816899914300,
  26316155427224393469880, 26329140763853705535610, 26332122164880961582880, 26336114623641190996290, 26342112341629565549800,
  26348111319463913871210, 26352113760572155452630, 26354080880989452519320, 26355118090289694432600, 26356097583845679519320,
  26360068674434636500440, 26361122407317077682820, 26364089146810631674550, 26366092222539502253200, 26367089606973004541630,
  26368122346154807508450, 26371048103192344217070, 26376070559540917447290, 26377050114888215380935, 26379110318629328301390]

def emitE5 : List Nat := [
  26381075814103518218860, 26384145012685645188280, 26388119454101787585430, 26389133641899950229220, 26391084396745372064180,
  26395070006090189705280, 26397074184730754852440, 26399060320923068799420, 26406133641899950229220, 26407108079870490042540,
  26408080899333652691240, 26410083654490585407420, 26411084936122844836500, 26412058389976612247585, 26413125637972841093790,
  26415061370483153625350, 26417099891170681581740, 26420100246004227502570, 26421090282566925428820, 26426061821820382402874,
  26429104561554402837200, 26432084406346909047620, 26434083437911986588150, 26435064888994344832280, 26438093804608212970070,
  26440126159830372799500, 26441105432604458488580, 26446097191835687492280, 26447105904227222636960, 26448078184967637729080,
  26449074658964080481810, 26451146264317074728340, 26454096814614947708540, 26460114880431335173200, 26462119007599050208040,
  26463079361693082960920, 26464117323630876953440, 26465068512118614339890, 26469049167797445287125, 26472095116366182952700,
  26474166413347280151000, 26477115384241578096720, 26479083525489175881700, 26480082436009766361900, 26481065896642674315040,
  26482117104644023877050, 26483166413347280151000, 26485130718020315337280, 26487127095090952907730, 26492143900429294086030,
  26494081255425175144900, 26495077205448395507240, 26497077206784311613700, 26500068446253622244170, 26505109645809257468160,
  26507108422420735545730, 26512078676405816306550, 26517121359848773092180, 26519068020657478056220, 26522093472971603415700,
  26524061551568080016010, 26525090703761448460880, 26526152550403668952090, 26530103009754242873460, 26531107197563083712830,
  26533146954245789597860, 26536152550403668952090, 26538084555665319985600, 26539106190985222403620, 26541129156413007784470,
  26543126159830372799500, 26544157250439961409430, 26550078364094653970390, 26551162358696199069360, 26564107387013946137330,
  26575101597575987386670, 26576099002245264419080, 26577140386450425707140, 26578166413347280151000, 26579085001449345574060,
  26580097568480759723160, 26584157250439961409430, 26585173344819085750430, 26586133641899950229220, 26588103259767264927640,
  26592144441101506788800, 26594157250439961409430, 26597072662853265618760, 26601111119056405036750, 26604128236224020581930,
  26607112966109886529060, 26609083942456767765740, 26611099750142703194220, 26612106637155877291700, 26613123305356026295850,
  26621157250439961409430, 26623120717917196701600, 26624173344819085750430, 26628152550403668952090, 26629123305356026295850,
  26631074810252896444810, 26632114400790743101930, 26633159481875474551540, 26634166413347280151000, 26635097933294534387350,
  26636153885717595197310, 26638124292071301366140, 26639096283189383754680, 26641081119165669762920, 26643115850889226667900,
  26646107819740215404530, 26647103107229538366010, 26657067880358170622580, 26665136709202624453980, 26666096492383005992100,
  26675152550403668952090, 26679057159989473489410, 26680087736546801387460, 26681080730682664148610, 26684068195996773512295,
  26685127701337171072070, 26686159481875474551540, 26688136709202624453980, 26690091708257324066100, 26691087652656890916540,
  26693144441101506788800, 26694110578384192334000, 26696070933442419592290, 26697150318968155809980, 26700095693370056389120,
  26704098131639283758040, 26705100530962450047610, 26707105614015329195080, 26708126805215584175200, 26709115263394185945990,
  26720130304168153708740, 26722100159423600071430, 26723098439525065143330, 26724159481875474551540, 26725073237556053693170,
  26726110173172218277600, 26727119095318910936410, 26728112637441805725530, 26729107428081765663870, 26742102148462705574070,
  26743166413347280151000, 26751093804608212970070, 26753087486959256931950, 26757081156774581867310, 26758146264317074728340,
  26767134224589031468980, 26771113158886940788100, 26772173344819085750430, 26775123440493217963070, 26781068512118614339890,
  26783129156413007784470, 26786109210229514076880, 26790095367798730583540, 26791116076341609878460, 26792111503330176375600,
  26797110981123183713390, 26799095371906350275700, 26800082798601115982820, 26803129400327539026050, 26805151372573312388250,
  26816098389399646907880, 26818128018824154217890, 26820086669739564999380, 26825103760335152773880, 26827100192635188220680,
  26829103534761678533140, 26834097191835687492280, 26837123508752868667070, 26838152550403668952090, 26839107197563083712830,
  26840118010924198475240, 26842099031822334191410, 26847097933294534387350, 26848106906921754273700, 26851133641899950229220,
  26855114400790743101930, 26858173344819085750430, 26862088635421016762680, 26864166413347280151000, 26865125386913629783030,
  26866107819740215404530, 26869104207445579153600, 26873166413347280151000, 26874113995877129554570, 26881111339727345323530,
  26885100212615214847420, 26891162358696199069360, 26893087992523546727080, 26894113134585592255180, 26895130304168153708740,
  26898094249924159012850, 26916139332845269128890, 26928143900429294086030, 26932150318968155809980, 26937139671860785885700,
  26941162358696199069360, 26943124366421086241330, 26946126249517072627100, 26954095116366182952700, 26963106190985222403620,
  26964152550403668952090, 26970077114360368352020, 26973144441101506788800, 26974138687460057753180, 26976103961974245580840,
  26979106803293883918260, 26982144441101506788800, 26984100159423600071430, 26987135968122902916750, 26989051190184946581760,
  26997077206784311613700, 26999112319233139614760, 27000136209098418707360, 27001117472332501747940, 27004073853042301218000,
  27010089401345471576530, 27012119095318910936410, 27014127495144299044720, 27015150318968155809980, 27016121986834715247830,
  27017136709202624453980, 27028122045831936519700, 27029113183247488766910, 27032166413347280151000, 27035146954245789597860,
  27036103151852548600000, 27047143387496350210530, 27048113657743485896780, 27051159481875474551540, 27053126249517072627100,
  27054079143669530236060, 27060118496849750843880, 27063130169937950387330, 27067116076341609878460, 27071159481875474551540,
  27073135502922746567830, 27082147695325511135070, 27083068446253622244170, 27084123577481661544690, 27085084555665319985600,
  27086145012685645188280, 27088110503477475042420, 27091117323630876953440, 27099107278317223768290, 27103125386913629783030,
  27104146264317074728340, 27112111339727345323530, 27121173344819085750430, 27123112637441805725530, 27133101221874400747020,
  27135140386450425707140, 27137107428081765663870, 27138072824450489356770, 27141152550403668952090, 27146112545487134794530,
  27155073853042301218000, 27160173344819085750430, 27161074810252896444810, 27166103009754242873460, 27167137509629701189340,
  27169076276785636687070, 27171057159989473489410, 27176150318968155809980, 27178096828863347174430, 27183140763853705535610,
  27185122910567916557980, 27189132073475235299520, 27192100246004227502570, 27193081119165669762920, 27194110173172218277600,
  27197166413347280151000, 27198132569444646693240, 27207126710428144629770, 27211073237556053693170, 27224111299241460063530,
  27225130859866665256850, 27231061821820382402874, 27233173344819085750430, 27237173344819085750430, 27243096828863347174430,
  27249124366421086241330, 27257150318968155809980, 27260147695325511135070, 27264116373884220696400, 27265173344819085750430,
  27268173344819085750430, 27273157250439961409430, 27278146264317074728340, 27280101003047288251950, 27281166413347280151000,
  27284098439525065143330, 27287137509629701189340, 27292119095318910936410, 27298098389399646907880, 27299140763853705535610,
  27305173344819085750430, 27308122782361032267350, 27315125386913629783030, 27320144441101506788800, 27323107278317223768290,
  27331103259767264927640, 27347150318968155809980, 27354121986834715247830, 27355159481875474551540, 27358147695325511135070,
  27359124292071301366140, 27365124366421086241330, 27367146264317074728340, 27368153885717595197310, 27370146954245789597860,
  27371173344819085750430, 27372150318968155809980, 27379166413347280151000, 27384136709202624453980, 27386128018824154217890,
  27387122910567916557980, 27396096283189383754680, 27402064888994344832280, 27407139332845269128890, 27410159481875474551540,
  27414119095318910936410, 27424108621356140741430, 27425058788042732069400, 27426079896980600493706, 27427101483376040527190,
  27428148495752587870430, 27431093231267994137590, 27442094781623371684560, 27447162358696199069360, 27450123238466144787870,
  27453100027669388485790, 27454078800195788994600, 27462112119890990606570, 27463105036076739288650, 27465106022712021078380,
  27468088093205475096300, 27472093231267994137590, 27481159481875474551540, 27487148495752587870430, 27489079896980600493706,
  27490073165056295542180, 27491071028063390054010, 27492062946047030367760, 27493065318904755875815, 27494079922364657189220,
  27495104108532804366170, 27497145012685645188280, 27498123040439871826080, 27506079860331344812310, 27511077350768498584770,
  27512091361175186074240, 27513106448826393960780, 27515076695688543836690, 27516112894765945390320, 27523124072282234178390,
  27524166413347280151000, 27526131149742033989370, 27527143387496350210530, 27530083622718302213940, 27531105511567079710830,
  27533141564280782270980, 27538151372573312388250, 27539123716372783151360, 27542083759417971628750, 27544105511567079710830,
  27546152550403668952090, 27550151372573312388250, 27553131149742033989370, 27556143387496350210530, 27563152550403668952090,
  27566123716372783151360, 27567131149742033989370, 27570112894765945390320, 27571173344819085750430, 27572123857220181968760,
  27573070599136747925820, 27575117547520825888210, 27578084406346909047620, 27580092635758197872260, 27583081858041969909690,
  27584091156947529735620, 27585091156947529735620, 27586148495752587870430, 27589093956796604205640, 27590123857220181968760,
  27595173344819085750430, 27597076665268341659400, 27599114967514614091040, 27602081257428179658340, 27603125808917174686800,
  27604077019504245751100, 27605100489753600522590, 27606166413347280151000, 27607152550403668952090, 27609109243070266088780,
  27611088570695871706500, 27617126340015427826270, 27627093011478926949830, 27631104237311206131090, 27641139671860785885700,
  27645157250439961409430, 27653141564280782270980, 27655131448271665486180, 27656126340015427826270, 27660131448271665486180,
  27663083669777212588080, 27665056470318711130850, 27667107862628058126700, 27668065642300593151620, 27675094639340640673330,
  27679140763853705535610, 27682111838791401287650, 27683065642300593151620, 27686134224589031468980, 27687106932997388344530,
  27688128685737899204600, 27691111838791401287650, 27694121696959346515300, 27695114236852645345160, 27696173344819085750430,
  27698131913471821835110, 27699131913471821835110, 27700066229794964591150, 27704097476783734124620, 27705162358696199069360,
  27712120614823500112960, 27713100852668514606540, 27714066440381218009130, 27719090540242219924830, 27721067665810680520700,
  27722134632808976671520, 27728116011406316772980, 27733126070940898627040, 27735091167735017297390, 27739108153346206346480,
  27740133091302178398950, 27741120411770838505500, 27742131297892891840780, 27743065545053060476970, 27744087704051312599560,
  27745102164657041097100, 27748099085282514975020, 27753128126933315260040, 27754115661609127812710, 27760102869646872177490,
  27762146264317074728340, 27764146954245789597860, 27766125637972841093790, 27769118373136832818420, 27770072202878248283895,
  27773108006930706417000, 27774121087352348618430, 27777117776538468755060, 27778121869874317615900, 27779099585997603600300,
  27780166413347280151000, 27781130169937950387330, 27784125142003429700070, 27785093486572421561260, 27788116925748376369310,
  27792131297892891840780, 27794093678952109366410, 27795120311770005159670, 27796152550403668952090, 27801084119569512736540,
  27802173344819085750430, 27803101053680307817420, 27807092783722490299830, 27809093678952109366410, 27811139004947040898980,
  27813132401373463529430, 27814127495144299044720, 27815131755988252153720, 27818120163619147308280, 27819103187694880878150,
  27821159481875474551540, 27825128685737899204600, 27827068664194562787340, 27832118496849750843880, 27833079682495166418870,
  27835064673239781179860, 27836116784900977551900, 27837113430173614670620, 27838135502922746567830, 27839101924453338682400,
  27841066342982998504110, 27844103405489333518550, 27849082702083127336440, 27850088913659205551220, 27852097360825792510800,
  27856166413347280151000, 27859121583321760012150, 27861057095321801147270, 27863130578157895589890, 27867082800938383727480]

def emitE6 : List Nat := [
  27870121304752214982480, 27872141989876926458930, 27873098585759392076470, 27874077896713026483210, 27875104665074996047500,
  27877093334619472513920, 27880083580932866296750, 27882088715337320112010, 27883155427224393469880, 27886157250439961409430,
  27887143900429294086030, 27888095977382261215480, 27889138687460057753180, 27891100001525582745070, 27893107805485045492320,
  27898151372573312388250, 27899108065239909524940, 27900104727705680943140, 27901088426065251430970, 27902136209098418707360,
  27905087855962704263160, 27915076210658662929310, 27916157250439961409430, 27918157250439961409430, 27922106178871350540650,
  27927098972755417037500, 27929133641899950229220, 27931091270800751986880, 27934083662130977985890, 27941085004362674072450,
  27943148495752587870430, 27945103405489333518550, 27946091385965172602470, 27947144441101506788800, 27950131149742033989370,
  27953134224589031468980, 27954069221005971227520, 27955157250439961409430, 27957127597709300716600, 27958118373136832818420,
  27961157250439961409430, 27962173344819085750430, 27963067634470745292550, 27964114129034889312280, 27965114263989704061140,
  27966075523148912754710, 27969069133321550139360, 27973106362138544596320, 27974098284397300569210, 27975145012685645188280,
  27976148495752587870430, 27978112454370331281980, 27979080859790755045130, 27981173344819085750430, 27982063459740208902735,
  27983145012685645188280, 27985112942271972976300, 27986122105179291717840, 27987124746695042133720, 27988138687460057753180,
  27993112894765945390320, 27994109714538050345780, 27995173344819085750430, 27996135968122902916750, 27998145618931863352630,
  28000145618931863352630, 28003153885717595197310, 28006099332506441620300, 28009099750142703194220, 28010092517707743374640,
  28014102011859536789750, 28015173344819085750430, 28020106946060747485080, 28023065370105846873020, 28024111732745868799680,
  28034096432818110521800, 28037119051362796206030, 28039136209098418707360, 28040090662630285075370, 28041090964736593566420,
  28044100219284104724460, 28046130304168153708740, 28051127095090952907730, 28052141989876926458930, 28053112637441805725530,
  28059087401425079821530, 28061110540860696148490, 28062159481875474551540, 28063136209098418707360, 28065112296886761600590,
  28067148495752587870430, 28068111400765174703710, 28070082476660228843580, 28071115475845272083360, 28072091154252475144460,
  28073108182888325320800, 28074173344819085750430, 28075166413347280151000, 28078135058405120859500, 28079097744014435532160,
  28082084664910103929500, 28085097375874704305000, 28088120361645420270080, 28092093287812299125000, 28096105998902486020960,
  28100125061681712727420, 28101142899594708516200, 28102114909374915436850, 28103119685058935531930, 28107109276019225057300,
  28108117738002775595160, 28113120163619147308280, 28114143900429294086030, 28118134426616104644180, 28120139332845269128890,
  28121115353892541145180, 28122088715337320112010, 28126125723079737772880, 28129095838671758046350, 28132136209098418707360,
  28133145618931863352630, 28134129906764867213600, 28136090547847746974170, 28138127495144299044720, 28139111279059818501160,
  28140159481875474551540, 28142102680149384380850, 28145082269497565805430, 28147098045385379734550, 28149099271641981056270,
  28150159481875474551540, 28151112894765945390320, 28153122224941202185010, 28154106362138544596320, 28155098711188630550220,
  28156115819092697494100, 28165074574410060538990, 28170099271641981056270, 28172145618931863352630, 28173118920641980532500,
  28174121033732917204570, 28176079213639712375240, 28180120980399457450950, 28183120411770838505500, 28185148495752587870430,
  28186129400327539026050, 28187095817170997237150, 28189119363192070572910, 28192102295164603052020, 28193088350454387480650,
  28195115084818011945930, 28196149365866357766740, 28197149365866357766740, 28198112296886761600590, 28201082429250725888290,
  28204080859790755045130, 28205121986834715247830, 28207078631628469816300, 28210162358696199069360, 28212109476025892124000,
  28216071610817291987120, 28218123857220181968760, 28222112942271972976300, 28227114511595200867650, 28228140763853705535610,
  28233173344819085750430, 28234113734765689517710, 28237141989876926458930, 28238127806050169745030, 28246071808194656736750,
  28248099648811880486350, 28251108983315402056160, 28254148495752587870430, 28255152550403668952090, 28262173344819085750430,
  28263100219284104724460, 28267147695325511135070, 28271099085282514975020, 28286077638830213287760, 28287099585997603600300,
  28291101932367862245530, 28293116043821256014700, 28294166413347280151000, 28297102319825528003940, 28303157250439961409430,
  28304067861711983091600, 28310071147977156889330, 28316105787129865907890, 28317092783722490299830, 28319135732817928814810,
  28322108242235680518930, 28325104811828153889660, 28326173344819085750430, 28327166413347280151000, 28330093057007460878970,
  28331082429250725888290, 28335105614015329195080, 28337173344819085750430, 28342111902962744493980, 28346126710428144629770,
  28354166413347280151000, 28356131755988252153720, 28357085567723127797950, 28359143387496350210530, 28363111503330176375600,
  28364111400765174703710, 28366151372573312388250, 28367173344819085750430, 28369097759651655294000, 28371136209098418707360,
  28372113110343156140100, 28373130304168153708740, 28378100810115258905170, 28382103750833964410680, 28383144441101506788800,
  28385079469162772296560, 28386121249957557336230, 28388112341629565549800, 28389109476025892124000, 28390138081213839588820,
  28392096229329289458980, 28393094253597253636330, 28396120163619147308280, 28399103750833964410680, 28402120411770838505500,
  28404095355485985338270, 28408122105179291717840, 28414100810115258905170, 28415079469162772296560, 28417120980399457450950,
  28418126710428144629770, 28422102800322504421030, 28425121583321760012150, 28431099923501779903230, 28435110883751430934810,
  28436081078745641349880, 28448089590827227766920, 28450067665810680520700, 28451136209098418707360, 28458113110343156140100,
  28459096977297961392640, 28460118920641980532500, 28465125808917174686800, 28466091154252475144460, 28467115787396949881320,
  28470157250439961409430, 28472079213639712375240, 28478118010924198475240, 28479098284397300569210, 28481131448271665486180,
  28487114651849954412700, 28491166413347280151000, 28497104727705680943140, 28500087855962704263160, 28504121583321760012150,
  28507103442254080811630, 28508103442254080811630, 28510133832381899936160, 28514122910567916557980, 28516082476660228843580,
  28525100040766967306400, 28526085186667046686910, 28527138687460057753180, 28528101932367862245530, 28536150318968155809980,
  28538129036651097317300, 28540123786548509737830, 28544108182888325320800, 28548113530676973205630, 28550145012685645188280,
  28551110540860696148490, 28552108437583740725360, 28556173344819085750430, 28557110597198873331040, 28558128801346123215360,
  28560166413347280151000, 28567115475845272083360, 28572109292534505442020, 28577111544652549224700, 28580088426065251430970,
  28583139671860785885700, 28586141564280782270980, 28590173344819085750430, 28595106070501837241890, 28598162358696199069360,
  28608088411716576221390, 28609112454370331281980, 28610128346722382447780, 28611124746695042133720, 28617159481875474551540,
  28625140022773983998400, 28626140386450425707140, 28629099585997603600300, 28632121304752214982480, 28635173344819085750430,
  28638136456024544611070, 28639063459740208902735, 28640122910567916557980, 28641157250439961409430, 28644087401425079821530,
  28651109476025892124000, 28652166413347280151000, 28654162358696199069360, 28655147695325511135070, 28657096229329289458980,
  28666116043821256014700, 28668151372573312388250, 28670112341629565549800, 28677121249957557336230, 28678121033732917204570,
  28681108065239909524940, 28687145012685645188280, 28689129400327539026050, 28693140386450425707140, 28698117472332501747940,
  28699129036651097317300, 28701132401373463529430, 28703114651849954412700, 28707166413347280151000, 28712140022773983998400,
  28722166413347280151000, 28734109292534505442020, 28739139004947040898980, 28748109442412415096940, 28751130440224674266520,
  28753106178871350540650, 28760094253597253636330, 28765130440224674266520, 28771077638830213287760, 28772138081213839588820,
  28777144441101506788800, 28779078604704341085830, 28781085567723127797950, 28783085815843837997380, 28784100517207289694510,
  28789083845976227970500, 28790112409121385299070, 28792114483778771248870, 28796115724305257948680, 28797094750687538814600,
  28798094750687538814600, 28799108437583740725360, 28800136968957488486570, 28805138081213839588820, 28806151372573312388250,
  28809096328295459328180, 28810129906764867213600, 28814088732243494891100, 28818128918306520847280, 28819173344819085750430,
  28820124145009827469190, 28821122593080933412160, 28822110559604844092000, 28825145012685645188280, 28828106374476609085600,
  28836166413347280151000, 28843129777730818854520, 28844105752266379113510, 28845095196784790856840, 28846084391262915786510,
  28847116611586414035510, 28851096051862342645630, 28855148495752587870430, 28856093171744008864630, 28857059915384468047925,
  28858050392772195920600, 28860091084434790895600, 28861120361645420270080, 28865105845507147864740, 28866095144439191162900,
  28867114483778771248870, 28872076551384076867090, 28874148495752587870430, 28879109818525122554770, 28888122718868755480770,
  28889145012685645188280, 28891101031949042474300, 28895088755536252907830, 28900101964088745306970, 28902091892223420581780,
  28903089547133930704800, 28904114967514614091040, 28905141156060837068440, 28907118291503726426810, 28908118622112349035690,
  28909083504149809219990, 28911103562681659443450, 28916114483778771248870, 28919109210229514076880, 28921145618931863352630,
  28925122718868755480770, 28937116925748376369310, 28938129036651097317300, 28947152550403668952090, 28949097655862451680480,
  28950117585328054287270, 28952112185897830920100, 28953136709202624453980, 28954116043821256014700, 28961086391425317753330,
  28966106046578380855680, 28975117032701267536780, 28976098728415163664690, 28977119139469093027590, 28982053879769416065750,
  29001091084434790895600, 29002114567461267954050, 29004094442736954650840, 29006126997529203454090, 29010106374476609085600,
  29013173344819085750430, 29014152550403668952090, 29017088755536252907830, 29018173344819085750430, 29020116273716438261680,
  29022122593080933412160, 29028106423981660684160, 29029097655862451680480, 29030113812385742872600, 29031073428919078173704,
  29032151372573312388250, 29033091892223420581780, 29036136968957488486570, 29038113183247488766910, 29042117140810428578930,
  29043162358696199069360, 29048173344819085750430, 29060134632808976671520, 29066102254197728878720, 29071117932183634166170,
  29074135502922746567830, 29076132569444646693240, 29081089519636204854080, 29084173344819085750430, 29087086982620107371660,
  29088113657743485896780, 29096173344819085750430, 29100111648711760835880, 29105083504149809219990, 29107157250439961409430,
  29109143387496350210530, 29113111753865200831100, 29118120361645420270080, 29121114967514614091040, 29123102419081926003650,
  29128085815843837997380, 29129110559604844092000, 29130173344819085750430, 29134124982000016235660, 29138089547133930704800,
  29141085486365706138320, 29145118291503726426810, 29146166413347280151000, 29148117585328054287270, 29151075377447259857960,
  29152151372573312388250, 29157099375333059540300, 29158108437583740725360, 29159133454978620107700, 29165101031949042474300,
  29166124441327803532900, 29172141156060837068440, 29177134843343068649850, 29180118622112349035690, 29182112185897830920100,
  29190106362138544596320, 29197105845507147864740, 29200096328295459328180, 29204173344819085750430, 29211095144439191162900,
  29224162358696199069360, 29226110922586431198780, 29228114938402512016450, 29229066999494524759620, 29232145618931863352630,
  29233081106331865740680, 29237096238285850738410, 29238078038712745539290, 29239076974369254982780, 29240094143987095218090,
  29241091594973756319560, 29242076974369254982780, 29243138081213839588820, 29245101258815706148460, 29246071476215551752330,
  29247159481875474551540, 29254084406346909047620, 29255069655950604877150, 29256082152704700099640, 29260078808032779991320,
  29261121526983582829580, 29266109259531175155460, 29270145012685645188280, 29272121526983582829580, 29273083903230776046400,
  29275090116018868051380, 29279132914306407404940, 29281151372573312388250, 29282100340090943072460, 29287096483196050821380]

def emitE7 : List Nat := [
  29289059524285182091690, 29294173344819085750430, 29298095144439191162900, 29301125304608638417870, 29305074943069622506820,
  29309125304608638417870, 29310150318968155809980, 29312127911871263050400, 29313112364076264088040, 29319166413347280151000,
  29322129036651097317300, 29325173344819085750430, 29334139332845269128890, 29343134843343068649850, 29346129036651097317300,
  29356111299241460063530, 29359088225022842116940, 29364140022773983998400, 29366079738267759399930, 29367122105179291717840,
  29368145012685645188280, 29369133454978620107700, 29376079738267759399930, 29378096566184078968330, 29380119499868457859540,
  29384109731794310020480, 29392087111285213304160, 29394138687460057753180, 29399094316247172944610, 29406118834434550093440,
  29408099369203730509920, 29417130578157895589890, 29420089501346304922360, 29421132914306407404940, 29422098240513521970370,
  29423128236224020581930, 29425094154894204097990, 29426127597709300716600, 29427148495752587870430, 29432110729902242540010,
  29433132914306407404940, 29436105810439899772640, 29437109731794310020480, 29441134026562758507190, 29450131600946386794070,
  29454099724713573153100, 29463147695325511135070, 29467096065063664694850, 29468118706501035494330, 29469133641899950229220,
  29473143900429294086030, 29477159481875474551540, 29481121811903140772650, 29482098937482011857830, 29483103036244324589230,
  29484123786548509737830, 29486082210930626753120, 29492106178871350540650, 29494133454978620107700, 29495117472332501747940,
  29499127597709300716600, 29502112076127244608590, 29503115661609127812710, 29505145012685645188280, 29508094154894204097990,
  29509098240513521970370, 29518084982533370490300, 29522150318968155809980, 29527115882787180348910, 29544089501346304922360,
  29546128236224020581930, 29548173344819085750430, 29549124516799859886720, 29552118834434550093440, 29554090885726438009510,
  29557099724713573153100, 29559122105179291717840, 29560095056473809869540, 29562124516799859886720, 29563082210930626753120,
  29566133641899950229220, 29568143900429294086030, 29572103618756572732900, 29575070877238515238690, 29577076507063020514300,
  29579070612255125890260, 29582162358696199069360, 29585131149742033989370, 29586166413347280151000, 29587173344819085750430,
  29589173344819085750430, 29590131755988252153720, 29595098648277356429150, 29599143387496350210530, 29602157250439961409430,
  29605136709202624453980, 29609101377953377406950, 29611125808917174686800, 29613173344819085750430, 29614108840114864308680,
  29615085817423991275540, 29616058801075915547040, 29618085133396722431540, 29626105939625489688200, 29627139671860785885700,
  29632118130209907127970, 29634121869874317615900, 29637162358696199069360, 29640116373884220696400, 29641129400327539026050,
  29642102757237560563800, 29645083943766954469200, 29647117360599495766690, 29649110137136143244600, 29654173344819085750430,
  29657143900429294086030, 29661173344819085750430, 29662133454978620107700, 29664086723229469086200, 29667148495752587870430,
  29669139332845269128890, 29671159481875474551540, 29673123928394859657400, 29674153885717595197310, 29677081247417166708940,
  29678149365866357766740, 29680173344819085750430, 29682140022773983998400, 29689173344819085750430, 29690139004947040898980,
  29694058801075915547040, 29699072100131408893890, 29701113037966483137800, 29702056993742097371864, 29703173344819085750430,
  29711107197563083712830, 29712107720378148813240, 29722166413347280151000, 29723105998902486020960, 29730121869874317615900,
  29732166413347280151000, 29733137235639959308190, 29734103433050214538350, 29736124516799859886720, 29738098855658060308440,
  29740130440224674266520, 29742123646686089990430, 29743173344819085750430, 29744120114719294366360, 29746173344819085750430,
  29747090289978908473540, 29748085027699907534660, 29750110429127690167230, 29756096464847421820270, 29759140022773983998400,
  29760166413347280151000, 29761112871097295287650, 29764149365866357766740, 29771108840114864308680, 29781129400327539026050,
  29783137509629701189340, 29785116475065522352250, 29786106573984473279090, 29787102502554864771280, 29788097838206654697080,
  29790090014519688321320, 29791105987018943327160, 29794173344819085750430, 29795107720378148813240, 29796094431511509131560,
  29801096706046498715730, 29802098648277356429150, 29805129524552739011620, 29807113037966483137800, 29808109079934511173530,
  29809173344819085750430, 29814094431511509131560, 29815143900429294086030, 29822100185984040652580, 29824173344819085750430,
  29825121359848773092180, 29827094517897022860180, 29830173344819085750430, 29831110903150079113080, 29832173344819085750430,
  29833107197563083712830, 29835093878643453305720, 29838150318968155809980, 29840102394175312879130, 29848159481875474551540,
  29852119731897428656200, 29854124366421086241330, 29855140022773983998400, 29856159481875474551540, 29859131149742033989370,
  29862143900429294086030, 29863121754266093605140, 29864124072282234178390, 29865145012685645188280, 29867173344819085750430,
  29872085817423991275540, 29885105939625489688200, 29893173344819085750430, 29898096464847421820270, 29902173344819085750430,
  29903110137136143244600, 29906126070940898627040, 29908150318968155809980, 29912166413347280151000, 29914126070940898627040,
  29915173344819085750430, 29916095689128274777280, 29920173344819085750430, 29922124072282234178390, 29923108575095456853600,
  29924148495752587870430, 29926087408833859564010, 29934140763853705535610, 29935125895497802117940, 29940137509629701189340,
  29942097006283488932750, 29943101536507095304880, 29951162358696199069360, 29956147695325511135070, 29964125895497802117940,
  29969166413347280151000, 29973140763853705535610, 29976106399198500539480, 29977166413347280151000, 29978114209789029367740,
  29980101119158897528740, 29983052480941059908500, 29986061146799605660170, 29989117547520825888210, 29992054864708822592320,
  29993145012685645188280, 29995095634148225096390, 29996145618931863352630, 29997155427224393469880, 30000081923133167021960,
  30001076676665075829510, 30002086822334861659410, 30003101031949042474300, 30005077938311020914570, 30007107305380839745700,
  30008099904090580019780, 30010141989876926458930, 30011080971101975478310, 30021100938322143195780, 30024153885717595197310,
  30027134026562758507190, 30028064332158073184930, 30031100931156252527250, 30033173344819085750430, 30036106094482664082000,
  30041083375823124516850, 30043173344819085750430, 30044100774792014829710, 30045086153279451125030, 30050100489753600522590,
  30053074578518102087985, 30054141564280782270980, 30058087941582997699520, 30059080971101975478310, 30060159481875474551540,
  30063173344819085750430, 30064081946713027893880, 30066159481875474551540, 30068095104358977187520, 30070069504217754439460,
  30072135278194188047230, 30079122164880961582880, 30083153885717595197310, 30086090164716310281730, 30087095104358977187520,
  30090102043833984494650, 30095101720844112193250, 30097082207625752032860, 30100173344819085750430, 30103078989999826219780,
  30106112097985176808400, 30109173344819085750430, 30111141989876926458930, 30112140386450425707140, 30113112800425623056740,
  30115143387496350210530, 30116117893044640954820, 30123097502170901859840, 30124143387496350210530, 30126113062033883443450,
  30127116509021412363620, 30129130718020315337280, 30130131448271665486180, 30131146954245789597860, 30132140022773983998400,
  30133129156413007784470, 30136124145009827469190, 30137109680114608436060, 30140103169757656337870, 30141123786548509737830,
  30142100831369252028300, 30146138081213839588820, 30147173344819085750430, 30149074821823928083490, 30151090307294930116300,
  30157142434394552167290, 30162107524567696822170, 30164146264317074728340, 30165101003047288251950, 30168128346722382447780,
  30171085002905903729720, 30174128346722382447780, 30178137791338470856300, 30179129524552739011620, 30183132073475235299520,
  30184143900429294086030, 30186111967548544888090, 30187123238466144787870, 30192119007599050208040, 30196112054316985144990,
  30201115263394185945990, 30202115263394185945990, 30207125304608638417870, 30208126070940898627040, 30209124072282234178390,
  30219116509021412363620, 30220155427224393469880, 30221112800425623056740, 30227111967548544888090, 30232144441101506788800,
  30239140763853705535610, 30240124145009827469190, 30241113062033883443450, 30244093331268827483420, 30246109526658911689460,
  30247141989876926458930, 30249109425647951824420, 30250132073475235299520, 30251122224941202185010, 30260157250439961409430,
  30266144441101506788800, 30270111339727345323530, 30271138379743471085630, 30272151372573312388250, 30274078989999826219780,
  30278143900429294086030, 30279123238466144787870, 30284094480246375973550, 30294134632808976671520, 30296140386450425707140,
  30300135278194188047230, 30303132073475235299520, 30306107524567696822170, 30307130037485682887120, 30311143387496350210530,
  30315120666237495117170, 30316130037485682887120, 30317138379743471085630, 30318111339727345323530, 30319137235639959308190,
  30321122224941202185010, 30322120666237495117170, 30328153885717595197310, 30331096355457087615960, 30332065064577153109100,
  30333072824019519890890, 30334089242059995048830, 30338115506567262453060, 30340064123275575478940, 30342120769865365472620,
  30343089885516465960280, 30347103798430436940560, 30350131600946386794070, 30353130169937950387330, 30355118920641980532500,
  30358104428560115227900, 30361126997529203454090, 30362130169937950387330, 30363173344819085750430, 30372166413347280151000,
  30382082775258434982180, 30384130718020315337280, 30385107692169385396830, 30394107692169385396830, 30399116611586414035510,
  30402124000079754443520, 30405124824516446554270, 30406098642577726750780, 30408096938780821814100, 30410072269928502530725,
  30415104960767077277000, 30416093630509108056930, 30417085820585047094500, 30418098908182254594530, 30420112141844896240940,
  30422086184378584136400, 30423096296699856424500, 30424081133005134209860, 30427088006282762657000, 30428096296699856424500,
  30430104960767077277000, 30431082771761727679230, 30433088987157158545360, 30435085820585047094500, 30436081133005134209860,
  30439106461271946282810, 30442088354526877864770, 30446068913189191688700, 30447149365866357766740, 30450112660563203309340,
  30452070962021012257970, 30456077548564359454530, 30457128571450940968380, 30460105025283430091890, 30462085989567228418180,
  30465063904879887778385, 30470173344819085750430, 30471162358696199069360, 30472126340015427826270, 30473098066879208536000,
  30475073953376788308810, 30489131149742033989370, 30495078195286034870986, 30496096202507637259580, 30501155427224393469880,
  30502155427224393469880, 30505117323630876953440, 30508134426616104644180, 30511117623278763972800, 30517173344819085750430,
  30518106498701809071170, 30519108257127716033620, 30520123172020717601200, 30522115661609127812710, 30524074861899915068655,
  30526070054325462316290, 30528063604386651533320, 30529114880431335173200, 30535166413347280151000, 30544107805485045492320,
  30545123106013877287670, 30549173344819085750430, 30555079611727083207215, 30556114880431335173200, 30558107805485045492320,
  30561099904090580019780, 30562146954245789597860, 30563079155026714875330, 30566119007599050208040, 30568128571450940968380,
  30571120212759295332570, 30572112119890990606570, 30585100817194905218560, 30589126159830372799500, 30590132236080444017330,
  30591113709025649565980, 30596151372573312388250, 30597132914306407404940, 30599117623278763972800, 30606141156060837068440,
  30610107706263820429160, 30622107706263820429160, 30629113037966483137800, 30631096400891059456220, 30633130037485682887120,
  30634139671860785885700, 30636115233409155983430, 30640106288428137150400, 30643119095318910936410, 30651112591358774863600,
  30652123106013877287670, 30655145012685645188280, 30675134426616104644180, 30679159481875474551540, 30682130037485682887120,
  30683113158886940788100, 30684135502922746567830, 30690118090289694432600, 30691120666237495117170, 30693068512118614339890,
  30697095290072833041870, 30699138379743471085630, 30701093675484101702050, 30702117815223236534270, 30703138379743471085630,
  30707070168999212326970, 30710106561397939207120, 30717121811903140772650, 30718129036651097317300, 30719086271643483018300,
  30720173344819085750430, 30721084022693962458300, 30722101266220371425700, 30732119969438288737250, 30733115599303630306360,
  30738166413347280151000, 30740085078940778013760, 30742105579749162028600, 30746115850889226667900, 30748144441101506788800]

def emitE8 : List Nat := [
  30755142434394552167290, 30757152550403668952090, 30758146954245789597860, 30759143387496350210530, 30765135502922746567830,
  30768143387496350210530, 30772081567680394259550, 30775142899594708516200, 30778123786548509737830, 30779153885717595197310,
  30782116646009855945230, 30784074838678456459835, 30789121811903140772650, 30796162358696199069360, 30798166413347280151000,
  30799173344819085750430, 30802162358696199069360, 30805108361997590986100, 30806162358696199069360, 30813128801346123215360,
  30820162358696199069360, 30827118170290121103360, 30828097256112793837840, 30830075162255004015766, 30831115850889226667900,
  30844137235639959308190, 30855173344819085750430, 30860104717239955236430, 30861090289978908473540, 30862093651241665586970,
  30865093906992161164190, 30867153885717595197310, 30871092969387234563480, 30872152550403668952090, 30874157250439961409430,
  30875127095090952907730, 30876134224589031468980, 30879117623278763972800, 30881138687460057753180, 30883131149742033989370,
  30887113505456278878540, 30889108361997590986100, 30893173344819085750430, 30896118496849750843880, 30897098757192161940850,
  30899105287593551580580, 30900137791338470856300, 30906075162255004015766, 30908084022693962458300, 30910162358696199069360,
  30913104307346509904450, 30917123508752868667070, 30922097986514457766760, 30923124072282234178390, 30928122045831936519700,
  30932157250439961409430, 30937142434394552167290, 30938105579749162028600, 30947134224589031468980, 30951127095090952907730,
  30952094582230262718170, 30956133641899950229220, 30959106561397939207120, 30962138379743471085630, 30967120717917196701600,
  30970121811903140772650, 30977107538427712900950, 30990074838678456459835, 30995159481875474551540, 31001090289978908473540,
  31006151372573312388250, 31014086271643483018300, 31018123786548509737830, 31019116646009855945230, 31020129036651097317300,
  31025153885717595197310, 31028123440493217963070, 31034067850436103099450, 31036082091549109258180, 31038074638275131341560,
  31040096886060833902300, 31041125061681712727420, 31048123238466144787870, 31049136209098418707360, 31054127495144299044720,
  31062085901531445750590, 31063124669474581194620, 31066111441665027218960, 31068128236224020581930, 31069097476783734124620,
  31070073863556544205355, 31071113812385742872600, 31072110729902242540010, 31077079881257326814180, 31079153885717595197310,
  31080077923229686589950, 31085112800425623056740, 31087090366892821941820, 31095111138917384753050, 31096100159423600071430,
  31098113606722967057830, 31103098489903005442890, 31104125386913629783030, 31105084347511136943470, 31108098489903005442890,
  31109104337512445298710, 31117100159423600071430, 31118090366892821941820, 31119081869748457704300, 31125127495144299044720,
  31131173344819085750430, 31141173344819085750430, 31142089713727325415210, 31143093063528491432840, 31146104337512445298710,
  31150082091549109258180, 31153111138917384753050, 31155166413347280151000, 31161106142617534397490, 31162107948959529573740,
  31163077901008251690635, 31165103187694880878150, 31166107251326654076640, 31167123172020717601200, 31168079814274343996860,
  31169093524070334938420, 31171123172020717601200, 31174118664217674399130, 31176173344819085750430, 31177112800425623056740,
  31179084776785518466670, 31181054148387869298920, 31185068456551281132750, 31186105602580222174290, 31189159481875474551540,
  31192091782585853804200, 31199096229329289458980, 31203133454978620107700, 31204127911871263050400, 31206101236634551028240,
  31207128458455388429030, 31209134632808976671520, 31215069791228751165955, 31216068551678180555130, 31224123106013877287670,
  31227084383044863002400, 31229116715214284390980, 31232098328474506916300, 31235151372573312388250, 31237086846827526107850,
  31238152550403668952090, 31240118664217674399130, 31243063154757873044470, 31245109210229514076880, 31246086846827526107850,
  31252133091302178398950, 31255173344819085750430, 31258113480299032906050, 31262124292071301366140, 31264122468855733426600,
  31267111817492138709390, 31278054148387869298920, 31281068551678180555130, 31283097938603799178910, 31287093261163382621250,
  31289115755801346977630, 31291099480110597451500, 31292109226636408651480, 31293111079452392875790, 31295096645199131014670,
  31298136456024544611070, 31302103214661189354140, 31308111817492138709390, 31309069791228751165955, 31310097901498005213550,
  31313143387496350210530, 31319108272041961900310, 31329143387496350210530, 31330116715214284390980, 31337097938603799178910,
  31344157250439961409430, 31348095942523838118610, 31350067391480212120190, 31351095959937860803990, 31352173344819085750430,
  31353127393620584404540, 31354073523218173876140, 31359094147621476504700, 31360152550403668952090, 31361093102744227964660,
  31363112119890990606570, 31364102697228807832420, 31368151372573312388250, 31373112141844896240940, 31377108590491918709540,
  31381133454978620107700, 31382118010924198475240, 31383098751430133547480, 31384126805215584175200, 31388115599303630306360,
  31389100435071304320620, 31391101908643058709230, 31392162358696199069360, 31397130169937950387330, 31398122105179291717840,
  31401100435071304320620, 31402114129034889312280, 31404159481875474551540, 31406095959937860803990, 31407108590491918709540,
  31418130169937950387330, 31423112230145690723650, 31428115599303630306360, 31429112141844896240940, 31431122105179291717840,
  31434112119890990606570, 31435060897627395559395, 31446120666237495117170, 31449076763835163004455, 31454124982000016235660,
  31455082690517083946700, 31456072952840888864690, 31459133832381899936160, 31461083437911986588150, 31462162358696199069360,
  31469104177668882214340, 31471079286569932786260, 31478124982000016235660, 31481093237903694447420, 31482109923604898538920,
  31485166413347280151000, 31487116577281063067610, 31491119826237750989770, 31492151372573312388250, 31494119273101371149240,
  31496119873743778575750, 31499114263989704061140, 31503162358696199069360, 31505074230261863897380, 31508085544630207058920,
  31513115475845272083360, 31515111319463913871210, 31518130440224674266520, 31520122164880961582880, 31526097686886261465300,
  31528125723079737772880, 31530166413347280151000, 31532095302305250469320, 31534159481875474551540, 31539144441101506788800,
  31546119318045267027650, 31548098711188630550220, 31558085544630207058920, 31559173344819085750430, 31561072210981648103360,
  31563099393743620125580, 31564141989876926458930, 31565114263989704061140, 31567114400790743101930, 31568121249957557336230,
  31569075454516780167400, 31570098284397300569210, 31572080075147246671410, 31574072981256829644920, 31579134224589031468980,
  31581109749080399026670, 31584121033732917204570, 31598136709202624453980, 31600173344819085750430, 31601138379743471085630,
  31605130859866665256850, 31607120717917196701600, 31609103323259541714220, 31614105511567079710830, 31616107197563083712830,
  31627119318045267027650, 31629134026562758507190, 31630151372573312388250, 31631109749080399026670, 31632143900429294086030,
  31635136209098418707360, 31636111178758074901800, 31637128236224020581930, 31639072206929127380040, 31649070276648600611730,
  31655173344819085750430, 31657136456024544611070, 31659119826237750989770, 31661090474568834099800, 31665092869723975936220,
  31668152550403668952090, 31680072992645853610210, 31681147695325511135070, 31684081751190913637280, 31686129036651097317300,
  31687089279968391432280, 31689075454516780167400, 31691173344819085750430, 31692138081213839588820, 31697132073475235299520,
  31699121811903140772650, 31705128801346123215360, 31713173344819085750430, 31716119826237750989770, 31717143900429294086030,
  31718150318968155809980, 31721134224589031468980, 31722127597709300716600, 31726099019981006579250, 31729125386913629783030,
  31735104177668882214340, 31740166413347280151000, 31742135968122902916750, 31751121811903140772650, 31756117661374048139460,
  31757121811903140772650, 31777107197563083712830, 31779132073475235299520, 31783114822794288005690, 31786127495144299044720,
  31787119826237750989770, 31799101003047288251950, 31800118291503726426810, 31805105511567079710830, 31806106498701809071170,
  31807122285364346744640, 31809129650340561080220, 31811099019981006579250, 31820103323259541714220, 31821087267170189744200,
  31833136209098418707360, 31839129650340561080220, 31840098711188630550220, 31852125386913629783030, 31854136456024544611070,
  31858099598528933560980, 31859066562441472773440, 31860159481875474551540, 31867066782819381415800, 31868173344819085750430,
  31869115025994312915270, 31881086775267747836470, 31889106251775683167460, 31890093836270508550560, 31893125386913629783030,
  31895117509855997933440, 31896146954245789597860, 31901148495752587870430, 31903116925748376369310, 31908116174542071688230,
  31909117815223236534270, 31914124072282234178390, 31918097025653955037910, 31921109047624305359070, 31922162358696199069360,
  31923157250439961409430, 31925116174542071688230, 31929099560981955783300, 31932136968957488486570, 31934093724145998213770,
  31941143900429294086030, 31946094308856189607420, 31957101956149086295210, 31958092252569554850900, 31961111119056405036750,
  31964132569444646693240, 31966124072282234178390, 31967111817492138709390, 31968127393620584404540, 31975097025653955037910,
  31983157250439961409430, 31986148495752587870430, 31988159481875474551540, 31995062993987148887910, 31998136968957488486570,
  32000070028549308918790, 32002150318968155809980, 32004073531540719205800, 32005077446098105172010, 32006159481875474551540,
  32007125982834601805480, 32009131448271665486180, 32010123508752868667070, 32011095450273424883710, 32013082187819407529810,
  32016099139030031642430, 32019140022773983998400, 32020092595215494591850, 32023099399888013560050, 32025085570806217077810,
  32026058297801659047900, 32027085388996916186170, 32028122224941202185010, 32030173344819085750430, 32032071477722143092280,
  32033096091518706579090, 32034080713593511598920, 32039082821998412571370, 32043106034638080929610, 32047089554020192884400,
  32048082171344034480250, 32049151372573312388250, 32050157250439961409430, 32051105845507147864740, 32057081480244770621940,
  32058133454978620107700, 32064128346722382447780, 32066078828437747046090, 32068079977732377840540, 32070128126933315260040,
  32080077008365103623655, 32085083348625679145130, 32093145618931863352630, 32094141156060837068440, 32097080377803709508180,
  32098137509629701189340, 32102077970704959187085, 32104109680114608436060, 32110114967514614091040, 32113065718879206926040,
  32114088037803671340140, 32115138687460057753180, 32117141564280782270980, 32121115661609127812710, 32129115114360130920250,
  32131140022773983998400, 32143126249517072627100, 32147061177815709206170, 32156127701337171072070, 32157166413347280151000,
  32160095977382261215480, 32162104875387689896640, 32163144441101506788800, 32172126249517072627100, 32173081986495887739230,
  32176141989876926458930, 32177095326815066660710, 32178079657712006274200, 32180107024801311794140, 32184112477071816627370,
  32186132914306407404940, 32187111817492138709390, 32189120614823500112960, 32190124218270228389920, 32191102895767914456740,
  32196162358696199069360, 32202082821998412571370, 32203173344819085750430, 32210083410545381624350, 32215155427224393469880,
  32216157250439961409430, 32218065904406147565160, 32221115819092697494100, 32222112683738184712960, 32224115384241578096720,
  32225166413347280151000, 32227087053896246613980, 32230173344819085750430, 32232088817205773181950, 32233090843841560022000,
  32236157250439961409430, 32239096478605736304250, 32242119638438804473810, 32244077467330262732220, 32249162358696199069360,
  32264140763853705535610, 32265115946889963958100, 32266123106013877287670, 32272133091302178398950, 32283105545600011027910,
  32286151372573312388250, 32287140022773983998400, 32291068204682041673070, 32299099289862453755700, 32302089727736199992000,
  32305096149079193154630, 32311109079934511173530, 32315109112349450415240, 32317097661026407385220, 32318080952625770484840,
  32321096003606052467380, 32323145012685645188280, 32326123040439871826080, 32327130440224674266520, 32338173344819085750430,
  32340068029191722226850, 32341102303378155875160, 32346133271487233425730, 32350091146171666623930, 32353106523733111252350,
  32361100995834882602120, 32362092483793729059440, 32365119921476566102320, 32367166413347280151000, 32371111924445029876870,
  32377113430173614670620, 32380092536254889340570, 32386110942060634042740, 32392137235639959308190, 32396069554436403640640]

def emitE9 : List Nat := [
  32399104696341306041830, 32403118250935719470660, 32406105122845179545530, 32408155427224393469880, 32412106288428137150400,
  32416136968957488486570, 32417159481875474551540, 32418077446098105172010, 32419150318968155809980, 32420105122845179545530,
  32421125982834601805480, 32422073531540719205800, 32423058297801659047900, 32426070028549308918790, 32427131448271665486180,
  32428096478605736304250, 32429122224941202185010, 32430173344819085750430, 32431092595215494591850, 32433099399888013560050,
  32434095326815066660710, 32435082187819407529810, 32437096149079193154630, 32438112477071816627370, 32439085388996916186170,
  32440085570806217077810, 32441095450273424883710, 32442096091518706579090, 32445099139030031642430, 32446140022773983998400,
  32447065904406147565160, 32448133454978620107700, 32449157250439961409430, 32450151372573312388250, 32451077467330262732220,
  32452079977732377840540, 32453105845507147864740, 32454082171344034480250, 32455068029191722226850, 32456078828437747046090,
  32457133091302178398950, 32458128126933315260040, 32460128346722382447780, 32461081480244770621940, 32462113430173614670620,
  32463061177815709206170, 32465115114360130920250, 32466109680114608436060, 32467077008365103623655, 32468145618931863352630,
  32469091146171666623930, 32472092483793729059440, 32473077970704959187085, 32474137509629701189340, 32475138687460057753180,
  32476080377803709508180, 32477083348625679145130, 32478141156060837068440, 32479065718879206926040, 32481140022773983998400,
  32482115661609127812710, 32483106523733111252350, 32485126249517072627100, 32487092536254889340570, 32489080952625770484840,
  32490083410545381624350, 32491124218270228389920, 32493069554436403640640, 32494132914306407404940, 32495173344819085750430,
  32496120614823500112960, 32498162358696199069360, 32499100995834882602120, 32500081986495887739230, 32501102895767914456740,
  32502126249517072627100, 32503145012685645188280, 32504104875387689896640, 32507144441101506788800, 32508127701337171072070,
  32509111817492138709390, 32510141989876926458930, 32511095977382261215480, 32512107024801311794140, 32515155427224393469880,
  32516157250439961409430, 32517157250439961409430, 32518106288428137150400, 32519162358696199069360, 32520119638438804473810,
  32521115819092697494100, 32524173344819085750430, 32526112683738184712960, 32531090843841560022000, 32532115384241578096720,
  32533109079934511173530, 32534088817205773181950, 32535166413347280151000, 32536087053896246613980, 32537115946889963958100,
  32538105545600011027910, 32539140022773983998400, 32541099289862453755700, 32543151372573312388250, 32544104696341306041830,
  32545173344819085750430, 32546123106013877287670, 32552118250935719470660, 32553089727736199992000, 32554123040439871826080,
  32556137235639959308190, 32557133271487233425730, 32558102303378155875160, 32559173344819085750430, 32560139671860785885700,
  32563166413347280151000, 32564111924445029876870, 32565155427224393469880, 32568110282066216270280, 32570094863288223755190,
  32573126710428144629770, 32580135968122902916750, 32581152550403668952090, 32592104128237244239160, 32593079657712006274200,
  32596159481875474551540, 32597104950054703462020, 32599085779569056480720, 32600146954245789597860, 32602090252973808887460,
  32607173344819085750430, 32609122285364346744640, 32610102612121911153340, 32617099344723914123510, 32618083654490585407420,
  32622072650986343268300, 32624090252973808887460, 32626082000511306992120, 32629097785768149636980, 32631102612121911153340,
  32641123577481661544690, 32645085779569056480720, 32648123577481661544690, 32650096206972919762880, 32652122164880961582880,
  32654074412972490348130, 32660128018824154217890, 32666114209789029367740, 32670111796238145586260, 32673119499868457859540,
  32675151372573312388250, 32676077298047862785410, 32680119499868457859540, 32681151372573312388250, 32687173344819085750430,
  32690098406080217914860, 32694140386450425707140, 32697115692908057902000, 32701093981792153730840, 32703135058405120859500,
  32704128018824154217890, 32705100544736556908560, 32709110845066663155600, 32714123238466144787870, 32716139671860785885700,
  32718124292071301366140, 32722072896250105763905, 32724095355485985338270, 32728124366421086241330, 32735138379743471085630,
  32736099025899917672430, 32737140386450425707140, 32741148495752587870430, 32742135732817928814810, 32745122846259013255070,
  32750148495752587870430, 32752101170384768785100, 32753143387496350210530, 32755140022773983998400, 32761124366421086241330,
  32763095890462983006640, 32764090339533023753070, 32766143900429294086030, 32768092667057127961530, 32769080622001350586780,
  32771078529700162740700, 32773055923194948020540, 32774116749996928154220, 32779150318968155809980, 32780070339311116115910,
  32781112753587129932470, 32784102578280931310920, 32786173344819085750430, 32789108792833452349220, 32791095740148793616240,
  32792115819092697494100, 32793139671860785885700, 32796130859866665256850, 32806173344819085750430, 32817159481875474551540,
  32819093797585740771350, 32822109731794310020480, 32823140022773983998400, 32824113380298199560220, 32827100718533076008030,
  32829137791338470856300, 32831117140810428578930, 32834149365866357766740, 32835157250439961409430, 32838144441101506788800,
  32842105287593551580580, 32843118538429852330530, 32844077679367031447480, 32845159481875474551540, 32850151372573312388250,
  32852077792760506196260, 32854092940350272719350, 32856087807639424764330, 32858094996938011868490, 32862076309708480715910,
  32873133454978620107700, 32874101258815706148460, 32879077792760506196260, 32880101258815706148460, 32882063643716549119205,
  32883113380298199560220, 32885133454978620107700, 32886149365866357766740, 32887077679367031447480, 32889159481875474551540,
  32893084842509429862290, 32894118538429852330530, 32895159481875474551540, 32899090862144611281440, 32901090862144611281440,
  32902103562681659443450, 32903136456024544611070, 32905082066539581733250, 32907134843343068649850, 32908108903506518746040,
  32915134224589031468980, 32918113632200687845820, 32920114075558826046330, 32922095634148225096390, 32923140763853705535610,
  32924173344819085750430, 32925106082485062162970, 32927162358696199069360, 32928091413581870629770, 32929078848097250881270,
  32930098688265984409880, 32932091146171666623930, 32933093974644190595900, 32937103760335152773880, 32938101605235888182500,
  32939153885717595197310, 32943086062177470788650, 32945135058405120859500, 32946066200196963657680, 32948094242582014776990,
  32954112076127244608590, 32956139671860785885700, 32957128685737899204600, 32958119638438804473810, 32959099115106575256230,
  32960094608841188895050, 32961090384342658103430, 32963105188419185007120, 32964116207491030656750, 32966093261163382621250,
  32972093004991738918240, 32974096972475197855720, 32982106312937953341820, 32983166413347280151000, 32986140763853705535610,
  32987135278194188047230, 32988078998786120167350, 32989139332845269128890, 32990082080667715366220, 32993103590679811190910,
  32996114595511777230130, 32997108109196024255320, 32999108079870490042540, 33008157250439961409430, 33009115787396949881320,
  33014096319257953064610, 33016105232375299737500, 33018103259767264927640, 33021057596338410006130, 33026097246197076614890,
  33029090384342658103430, 33030098394956746245100, 33032085195573088540240, 33033085195573088540240, 33034101775255439594070,
  33039092502278022677270, 33040132073475235299520, 33041082490247187455500, 33042162358696199069360, 33043127293117225869530,
  33044159481875474551540, 33046135278194188047230, 33048138379743471085630, 33050084761132722670250, 33065162358696199069360,
  33067090282566925428820, 33071111586146384692830, 33073090282566925428820, 33074145618931863352630, 33080083829122655562220,
  33081094608841188895050, 33086127393620584404540, 33094121033732917204570, 33096130718020315337280, 33098091049707896105860,
  33099128918306520847280, 33102119638438804473810, 33104097471714025524290, 33105108346948679191900, 33107153885717595197310,
  33108092318954831842550, 33109100225957444978800, 33125105466369262654640, 33126082490247187455500, 33129153885717595197310,
  33131099115106575256230, 33133139671860785885700, 33134131913471821835110, 33136099283785273380280, 33137128018824154217890,
  33139084761132722670250, 33140129277626613107900, 33144091413581870629770, 33145097006283488932750, 33146097020807819735900,
  33147106764708627042960, 33150089358470532829410, 33151093985368052213420, 33152097681708938025800, 33160140763853705535610,
  33162101460691720780910, 33167100909689339095630, 33169131600946386794070, 33176162358696199069360, 33178091146171666623930,
  33179104530706049325080, 33180093311188499450960, 33181111360031920827360, 33184096319257953064610, 33190153885717595197310,
  33193106764708627042960, 33203111000711828566720, 33210114708507329769470, 33211140386450425707140, 33213093261163382621250,
  33215127293117225869530, 33216150318968155809980, 33218088309820442908100, 33222129400327539026050, 33225083829122655562220,
  33226127806050169745030, 33229132073475235299520, 33231131600946386794070, 33240091049707896105860, 33247092502278022677270,
  33248159481875474551540, 33251078201924916832080, 33253110806530969995710, 33255151372573312388250, 33256082325065612769870,
  33258073160152477152660, 33260152550403668952090, 33261111817492138709390, 33267072056133097845140, 33268073645513994902010,
  33275114318485751736780, 33276123857220181968760, 33278119273101371149240, 33280153885717595197310, 33282162358696199069360,
  33285104357673742450570, 33286130718020315337280, 33287083558214189353580, 33288076474726694843640, 33289071764296600499620,
  33290087201620064280830, 33292104247286269302340, 33293091314516668601850, 33298113305948414685050, 33307152550403668952090,
  33308116543092995579760, 33310087939628918553100, 33311096355457087615960, 33314150318968155809980, 33320141564280782270980,
  33322086538102481663320, 33323127597709300716600, 33324068852746732956040, 33328087064631620699210, 33329098523629850229280,
  33333115755801346977630, 33334098295398401788730, 33335122910567916557980, 33336135278194188047230, 33337082424747235607260,
  33339151372573312388250, 33351085164436581807440, 33352173344819085750430, 33355166413347280151000, 33368096233806567348860,
  33369098523629850229280, 33375145618931863352630, 33382087064631620699210, 33387151372573312388250, 33390125982834601805480,
  33391077845313712867210, 33392127495144299044720, 33393127495144299044720, 33394062989956483531730, 33395089257651934948900,
  33399089257651934948900, 33402079466650314681060, 33405151372573312388250, 33406112119890990606570, 33407149365866357766740,
  33410072992645853610210, 33411149365866357766740, 33418137235639959308190, 33419104832969810813000, 33421134224589031468980,
  33422138379743471085630, 33423173344819085750430, 33424139332845269128890, 33425162358696199069360, 33426096575447627569630,
  33432143387496350210530, 33433131297892891840780, 33436116240548912001740, 33437099636217420383280, 33441162358696199069360,
  33445130440224674266520, 33446103116138224924030, 33448162358696199069360, 33449133454978620107700, 33450125637972841093790,
  33452090996516281329870, 33454132073475235299520, 33455116273716438261680, 33457069353534385981280, 33459081797599603618740,
  33463109714538050345780, 33464110355326617191000, 33465104928664320974520, 33467134026562758507190, 33469102774449268771520,
  33470116407497697723450, 33473155427224393469880, 33476139332845269128890, 33479106959141194085240, 33480173344819085750430,
  33482173344819085750430, 33483138081213839588820, 33484124592845853738920, 33485117250101133900840, 33487088326054212707000,
  33489097461582312398210, 33490133454978620107700, 33491109392203104595950, 33492118130209907127970, 33493140763853705535610,
  33495089623144892090640, 33499140386450425707140, 33502130169937950387330, 33503123857220181968760, 33504173344819085750430,
  33505141989876926458930, 33507136209098418707360, 33509083640498342458010, 33510080401681028226830, 33515162358696199069360,
  33519109144869804279000, 33521076679199448269110, 33524166413347280151000, 33527127293117225869530, 33529125304608638417870,
  33534151372573312388250, 33537152550403668952090, 33538098791834228917530, 33539081751190913637280, 33540117250101133900840,
  33541108377069183891800, 33542162358696199069360, 33545146264317074728340, 33550106662536601576400, 33551133641899950229220,
  33556136968957488486570, 33559123305356026295850, 33563136709202624453980, 33564111523970018584130, 33575119921476566102320]

def emitE10 : List Nat := [
  33576103506919433169080, 33579101133768103925480, 33580119592035008908800, 33581166413347280151000, 33586099314208174849540,
  33589111967548544888090, 33590088671094121427620, 33592116996923054057940, 33593107819740215404530, 33600141156060837068440,
  33603106946060747485080, 33606119638438804473810, 33607166413347280151000, 33609084216046209057470, 33610119638438804473810,
  33615147695325511135070, 33616089202077711666480, 33617159481875474551540, 33618097011122588954600, 33620128018824154217890,
  33626131297892891840780, 33627159481875474551540, 33628157250439961409430, 33630159481875474551540, 33631128346722382447780,
  33632140022773983998400, 33633088354526877864770, 33635079143669530236060, 33636133091302178398950, 33637151372573312388250,
  33638139332845269128890, 33639135502922746567830, 33642114880431335173200, 33643112076127244608590, 33645145012685645188280,
  33647076482800978689660, 33655097573599776983640, 33659117971476415565060, 33660125723079737772880, 33661141156060837068440,
  33669166413347280151000, 33673090366892821941820, 33674087272652145112190, 33678108050630703128200, 33683124592845853738920,
  33686106662536601576400, 33688141564280782270980, 33694116925748376369310, 33696139332845269128890, 33698131297892891840780,
  33703138081213839588820, 33704159481875474551540, 33706157250439961409430, 33707106046578380855680, 33713102344547419457840,
  33714089065571849169880, 33715173344819085750430, 33718166413347280151000, 33719090885726438009510, 33721096706046498715730,
  33722118622112349035690, 33724173344819085750430, 33725105602580222174290, 33728151372573312388250, 33729111753865200831100,
  33735101010264899536060, 33738104644284967769180, 33740089718394770074050, 33743173344819085750430, 33748159481875474551540,
  33750173344819085750430, 33752149365866357766740, 33756081864425627962410, 33759139004947040898980, 33760152550403668952090,
  33761127911871263050400, 33765173344819085750430, 33770139332845269128890, 33771152550403668952090, 33775068199795650175890,
  33777110691806958373340, 33778095084378950560780, 33785173344819085750430, 33789157250439961409430, 33793147695325511135070,
  33795115084818011945930, 33796106034638080929610, 33799124592845853738920, 33802102344547419457840, 33803166413347280151000,
  33804109560557249234570, 33805083399371502505330, 33806125222975532026270, 33807153885717595197310, 33816153885717595197310,
  33820144441101506788800, 33821115114360130920250, 33828140386450425707140, 33829075377447259857960, 33830140763853705535610,
  33831119095318910936410, 33832090815147135742450, 33836076553261129899350, 33841123172020717601200, 33848132740388980286250,
  33852108006930706417000, 33853076725564928771440, 33862132236080444017330, 33865081436302131827230, 33873149365866357766740,
  33874145012685645188280, 33878140763853705535610, 33879086490660847443530, 33882146954245789597860, 33883108667831824706900,
  33884162358696199069360, 33889173344819085750430, 33891111945973563487890, 33894106959141194085240, 33897135732817928814810,
  33900092076681878489300, 33901166413347280151000, 33905109835961918603040, 33907136209098418707360, 33909112207997287428130,
  33910159481875474551540, 33911133091302178398950, 33912144441101506788800, 33914111711671045404020, 33922103268812946231900,
  33928152550403668952090, 33931118210531624100610, 33940173344819085750430, 33943148495752587870430, 33945094495289628152310,
  33948118706501035494330, 33950166413347280151000, 33953157250439961409430, 33960143900429294086030, 33970122718868755480770,
  33976103053943444253820, 33980117250101133900840, 33981162358696199069360, 33983113330670306138930, 33984114880431335173200,
  33985143900429294086030, 33988099025899917672430, 33993083120386077260000, 33995086184378584136400, 34003115475845272083360,
  34013106300675536109370, 34015146264317074728340, 34016147695325511135070, 34019140763853705535610, 34021153885717595197310,
  34028099897628544253720, 34030089065571849169880, 34031155427224393469880, 34036173344819085750430, 34045157250439961409430,
  34047129400327539026050, 34065111400765174703710, 34067124145009827469190, 34071107905700630102520, 34074111606958046731070,
  34081125982834601805480, 34083118210531624100610, 34085109835961918603040, 34091141156060837068440, 34092114373280409383020,
  34093112076127244608590, 34103137235639959308190, 34106139332845269128890, 34107133454978620107700, 34108118010924198475240,
  34109101574631426651440, 34115107963420848073750, 34120138081213839588820, 34121107720378148813240, 34122103637518304315180,
  34126159481875474551540, 34131151372573312388250, 34134166413347280151000, 34136159481875474551540, 34137122285364346744640,
  34148140386450425707140, 34152157250439961409430, 34154116240548912001740, 34157119095318910936410, 34160151372573312388250,
  34162173344819085750430, 34164115414683001909000, 34167140763853705535610, 34171146264317074728340, 34174101258815706148460,
  34180097938603799178910, 34183101744127009789180, 34184128346722382447780, 34186146264317074728340, 34191148495752587870430,
  34196137235639959308190, 34203129777730818854520, 34204157250439961409430, 34207166413347280151000, 34214089202077711666480,
  34216162358696199069360, 34217090815147135742450, 34218095592060620881810, 34219141564280782270980, 34222145618931863352630,
  34223101736360019107450, 34224134632808976671520, 34231146954245789597860, 34233136709202624453980, 34234140022773983998400,
  34249116108968066226620, 34253106300675536109370, 34255079620226871224260, 34259121583321760012150, 34261131149742033989370,
  34268126070940898627040, 34269079466650314681060, 34276109697311517231330, 34277076482800978689660, 34281110083324354199450,
  34282145618931863352630, 34294173344819085750430, 34297118010924198475240, 34298139332845269128890, 34299094031971470491540,
  34308173344819085750430, 34309142899594708516200, 34310103116138224924030, 34311088326054212707000, 34314115414683001909000,
  34315145012685645188280, 34321138081213839588820, 34326132073475235299520, 34327132073475235299520, 34330121583321760012150,
  34338133641899950229220, 34345166413347280151000, 34349074943069622506820, 34360152550403668952090, 34362147695325511135070,
  34367115114360130920250, 34382088231056024803710, 34383102361062699842570, 34384114428376967492720, 34385079508607244570560,
  34387162358696199069360, 34388148495752587870430, 34389067524279603565040, 34394094390459016320800, 34395094390459016320800,
  34396102361062699842570, 34398118250935719470660, 34399074435225066161860, 34402146264317074728340, 34407099910556794276760,
  34411085428438714890460, 34412149365866357766740, 34415149365866357766740, 34417136456024544611070, 34425095245348220982540,
  34427139671860785885700, 34428162358696199069360, 34430110227470994221300, 34431162358696199069360, 34432095701859021245250,
  34433109628700613431870, 34442130169937950387330, 34443173344819085750430, 34444137791338470856300, 34451113256687231324480,
  34453113969457034926180, 34460148495752587870430, 34467109375522533588970, 34468127597709300716600, 34471142434394552167290,
  34473166413347280151000, 34474115630407854450270, 34480166413347280151000, 34481130169937950387330, 34484135732817928814810,
  34486149365866357766740, 34496148495752587870430, 34500137235639959308190, 34503098585759392076470, 34505142434394552167290,
  34507091224561039516060, 34510127293117225869530, 34511146264317074728340, 34512134426616104644180, 34513159481875474551540,
  34521111565377945244430, 34523115143989782226810, 34527118332236980303160, 34532138081213839588820, 34541132401373463529430,
  34542101288467321646800, 34544141989876926458930, 34547141156060837068440, 34552159481875474551540, 34553146264317074728340,
  34555138081213839588820, 34558120927348935154020, 34560112185897830920100, 34562102654584819967840, 34567135058405120859500,
  34569166413347280151000, 34570144441101506788800, 34573121359848773092180, 34578105221368143975640, 34579124824516446554270,
  34581138081213839588820, 34583136456024544611070, 34588104247286269302340, 34593115882787180348910, 34594141989876926458930,
  34597147695325511135070, 34606148495752587870430, 34612124746695042133720, 34631110447663376660470, 34632145618931863352630,
  34633114794099863726160, 34636173344819085750430, 34638128801346123215360, 34643145012685645188280, 34645095701859021245250,
  34647124218270228389920, 34656115025994312915270, 34659139332845269128890, 34661166413347280151000, 34662110227470994221300,
  34664136456024544611070, 34678106106494677538340, 34680136456024544611070, 34683157250439961409430, 34685173344819085750430,
  34690121470961027342880, 34692141156060837068440, 34693131003754039777840, 34696134632808976671520, 34699173344819085750430,
  34701084344782996154470, 34719135058405120859500, 34722140386450425707140, 34728149365866357766740, 34732148495752587870430,
  34733147695325511135070, 34735157250439961409430, 34746111198738101528520, 34752119183815063706240, 34756141989876926458930,
  34758114938402512016450, 34760145618931863352630, 34766149365866357766740, 34770127597709300716600, 34784118170290121103360,
  34789133091302178398950, 34796114794099863726160, 34802085428438714890460, 34806146264317074728340, 34809106251775683167460,
  34811109628700613431870, 34814126900910094336700, 34819155427224393469880, 34821110447663376660470, 34822162358696199069360,
  34826149365866357766740, 34829128801346123215360, 34837139332845269128890, 34838143387496350210530, 34847115882787180348910,
  34849107805485045492320, 34850110227470994221300, 34851127293117225869530, 34870113969457034926180, 34873153885717595197310,
  34875101288467321646800, 34880082454056240919000, 34885113281287489733110, 34892052218851262370430, 34893102697228807832420,
  34899061370483153625350, 34900100421447324011660, 34903083131252362663660, 34905122105179291717840, 34907079520386799992380,
  34909081923133167021960, 34912151372573312388250, 34913084646619560666440, 34914103433050214538350, 34915083845976227970500,
  34917091751071717996170, 34920063886879035819010, 34921138379743471085630, 34923096720140933748070, 34924117738002775595160,
  34926101759679112457240, 34928102536140118842610, 34930113305948414685050, 34935102156556595129670, 34941134026562758507190,
  34942173344819085750430, 34943162358696199069360, 34945130440224674266520, 34946129524552739011620, 34948113632200687845820,
  34949124592845853738920, 34950173344819085750430, 34955086831075356927880, 34957097040206467914170, 34962125386913629783030,
  34966091284441457962300, 34971173344819085750430, 34972120311770005159670, 34974101759679112457240, 34978159481875474551540,
  34980126710428144629770, 34987095757213644173810, 34989091877728563717240, 34993104790731099651160, 35009088713226056512920,
  35010087059262493053460, 35013075444990568357360, 35014129277626613107900, 35018124592845853738920, 35028103045089968686570,
  35029095265652796486350, 35032129777730818854520, 35033108301937350383980, 35036091751071717996170, 35037075444990568357360,
  35039115819092697494100, 35041055086306909161380, 35042133641899950229220, 35044107064405323955110, 35045152550403668952090,
  35056125982834601805480, 35057133454978620107700, 35059107387013946137330, 35060136709202624453980, 35064117286798422790460,
  35065104717239955236430, 35068166413347280151000, 35070143387496350210530, 35074115661609127812710, 35088127393620584404540,
  35090137791338470856300, 35091129036651097317300, 35096173344819085750430, 35097162358696199069360, 35098134843343068649850,
  35099124516799859886720, 35109118964025996518480, 35122107064405323955110, 35123133641899950229220, 35125173344819085750430,
  35126129277626613107900, 35128124516799859886720, 35131134632808976671520, 35140095068423622086210, 35145152550403668952090,
  35158113632200687845820, 35166147695325511135070, 35167102948215587129680, 35168129277626613107900, 35174173344819085750430,
  35178120311770005159670, 35183117738002775595160, 35186091877728563717240, 35195159481875474551540, 35199066118975771561940,
  35201052682462082326700, 35203130440224674266520, 35206105694429317945020, 35208173344819085750430, 35211062408213321995040,
  35215078086011360186840, 35219113530676973205630, 35222073079805801437720, 35238122224941202185010, 35242073597440345107490,
  35250122975293061614150, 35255109226636408651480, 35258074597539777103400, 35261086250168295116830, 35263162358696199069360,
  35264074134983084221650, 35265062408213321995040, 35266074134983084221650, 35268078086011360186840, 35269113530676973205630,
  35270073079805801437720, 35272086250168295116830, 35273074597539777103400, 35276162358696199069360, 35278122224941202185010]

def emitE11 : List Nat := [
  35280122975293061614150, 35281109226636408651480, 35282079339344855309170, 35294138081213839588820, 35299070215372266612140,
  35302085570806217077810, 35307157250439961409430, 35316138081213839588820, 35320085570806217077810, 35328070371970527984330,
  35330085214896766050790, 35335128236224020581930, 35336067777321091778860, 35338089510487073383300, 35340106374476609085600,
  35342093415373612569380, 35344133091302178398950, 35347082454056240919000, 35349126340015427826270, 35350136209098418707360,
  35352074467681101549570, 35355140763853705535610, 35357102469082030170710, 35359099163010858482550, 35362152550403668952090,
  35363106842028599876220, 35365127911871263050400, 35370084494562505241970, 35373068666184867168320, 35377076016047569048590,
  35380076293843210119350, 35382138081213839588820, 35384173344819085750430, 35386099629926133607660, 35393122782361032267350,
  35408106362138544596320, 35410138081213839588820, 35412109047624305359070, 35413087028891768503100, 35419146264317074728340,
  35421173344819085750430, 35422083650672577088700, 35424120163619147308280, 35425125061681712727420, 35426085903125198244200,
  35427108714524516543740, 35430074749984915369705, 35433090812542629932710, 35435116890350109318070, 35437153885717595197310,
  35438150318968155809980, 35440139332845269128890, 35441065427533656115170, 35442072728374262442586, 35443103488400909358360,
  35449149365866357766740, 35461129400327539026050, 35463119499868457859540, 35465084053115254354190, 35466173344819085750430,
  35468152550403668952090, 35469082336216372176820, 35475104811828153889660, 35477110806530969995710, 35480113530676973205630,
  35482140022773983998400, 35486071487143485011290, 35488152550403668952090, 35489111924445029876870, 35491155427224393469880,
  35492081512044561485500, 35493155427224393469880, 35494104367769654464070, 35496115323635331979800, 35498063110120416346140,
  35504142434394552167290, 35506091871936498684200, 35513145012685645188280, 35516095566892822362140, 35519075207002691234090,
  35524133454978620107700, 35527084357065495139740, 35529126523506814508250, 35531082529981587238660, 35533139332845269128890,
  35537150318968155809980, 35538098568776653774550, 35542065037439019284250, 35543166413347280151000, 35547127495144299044720,
  35548110245636303485280, 35549150318968155809980, 35553153885717595197310, 35554136709202624453980, 35556131755988252153720,
  35558121470961027342880, 35559098185928233599180, 35563106893909390694000, 35565107734512426784700, 35566157250439961409430,
  35569108422420735545730, 35571122468855733426600, 35574144441101506788800, 35575110392159071353980, 35576109818525122554770,
  35578129036651097317300, 35580155427224393469880, 35582088158896962451000, 35584089000183647578020, 35585123372696348109280,
  35586080846324035041480, 35588173344819085750430, 35589131448271665486180, 35591126900910094336700, 35594109096128846696560,
  35598123305356026295850, 35600124516799859886720, 35604128018824154217890, 35606115914787207655610, 35607122468855733426600,
  35609101340570156300860, 35611095821467452727520, 35613085826910157994810, 35616109853429171952450, 35624113838393559873160,
  35627136968957488486570, 35628112032554190919030, 35641102352801650219510, 35657073669403272488100, 35662131913471821835110,
  35663131297892891840780, 35672070854915891034340, 35674122782361032267350, 35676094658450143908760, 35678145012685645188280,
  35686084924553790762330, 35695090145208866885160, 35696062302617956379320, 35703071548409844110905, 35709084053115254354190,
  35712081336869494423920, 35722071262708177322835, 35731084511189916582840, 35740166413347280151000, 35742152550403668952090,
  35745067777321091778860, 35746085214896766050790, 35748082336216372176820, 35749131297892891840780, 35750133091302178398950,
  35751106374476609085600, 35752093415373612569380, 35753084511189916582840, 35754126340015427826270, 35755136209098418707360,
  35757082454056240919000, 35758062302617956379320, 35759089510487073383300, 35760074467681101549570, 35762095821467452727520,
  35763108422420735545730, 35766102469082030170710, 35767127911871263050400, 35768076016047569048590, 35769140763853705535610,
  35770065037439019284250, 35772099163010858482550, 35773110392159071353980, 35774068666184867168320, 35775084494562505241970,
  35776106842028599876220, 35777073669403272488100, 35778122782361032267350, 35779138081213839588820, 35780087028891768503100,
  35781146264317074728340, 35782070854915891034340, 35784106362138544596320, 35785076293843210119350, 35786099629926133607660,
  35788131448271665486180, 35789083650672577088700, 35791109047624305359070, 35793090145208866885160, 35794138081213839588820,
  35797074749984915369705, 35799090812542629932710, 35800139332845269128890, 35802088313876415383080, 35803129400327539026050,
  35805065427533656115170, 35806110806530969995710, 35808150318968155809980, 35809153885717595197310, 35810085903125198244200,
  35811108714524516543740, 35812139332845269128890, 35813072728374262442586, 35814103488400909358360, 35815116890350109318070,
  35816136709202624453980, 35817125061681712727420, 35819111924445029876870, 35820155427224393469880, 35821071487143485011290,
  35822140022773983998400, 35823081512044561485500, 35824155427224393469880, 35825113530676973205630, 35826115323635331979800,
  35828063110120416346140, 35829104367769654464070, 35831082529981587238660, 35832109818525122554770, 35834088158896962451000,
  35835081336869494423920, 35836150318968155809980, 35837145012685645188280, 35838091871936498684200, 35839126523506814508250,
  35840127495144299044720, 35841142434394552167290, 35842166413347280151000, 35843075207002691234090, 35845098568776653774550,
  35846133454978620107700, 35848084357065495139740, 35850095566892822362140, 35851089000183647578020, 35852144441101506788800,
  35853110245636303485280, 35854109096128846696560, 35855106893909390694000, 35856098185928233599180, 35857128018824154217890,
  35858123372696348109280, 35859080846324035041480, 35860131755988252153720, 35861107734512426784700, 35862155427224393469880,
  35864155427224393469880, 35865122468855733426600, 35866129036651097317300, 35867121470961027342880, 35868123305356026295850,
  35870150318968155809980, 35871113838393559873160, 35872166413347280151000, 35873115914787207655610, 35874085826910157994810,
  35875109853429171952450, 35876122468855733426600, 35877153885717595197310, 35878101340570156300860, 35879124516799859886720,
  35880102352801650219510, 35882136968957488486570, 35884112032554190919030, 35885122782361032267350, 35889094658450143908760,
  35890131913471821835110, 35891152550403668952090, 35895083159075522208160, 35905146264317074728340, 35910090349473382424460,
  35912144441101506788800, 35913139332845269128890, 35918120666237495117170, 35920093053748539553070, 35925173344819085750430,
  35930101521297966897810, 35937069757871560359375, 35944173344819085750430, 35946094631707052516370, 35947094731401129750540,
  35948098937482011857830, 35960139332845269128890, 35961101643623651254150, 35970128571450940968380, 35973150318968155809980,
  35977148495752587870430, 35980084201246340900280, 35987103036244324589230, 35997093675484101702050, 35998099667733362006730,
  36000087309275515107640, 36001093780051105382630, 36002107064405323955110, 36007101628250858065300, 36008088948179196680450,
  36009110578384192334000, 36010139332845269128890, 36011089473974025058260, 36012074839205618483210, 36015126523506814508250,
  36018162358696199069360, 36019151372573312388250, 36020081674666613372350, 36022133271487233425730, 36023088444543852315750,
  36024097681708938025800, 36026173344819085750430, 36027072927553118151500, 36028094793249026937000, 36029151372573312388250,
  36031089579310469612730, 36032100620835160049980, 36033129777730818854520, 36034107948959529573740, 36035114400790743101930,
  36036108590491918709540, 36037130169937950387330, 36039070369272928831210, 36040111339727345323530, 36042089403607147488000,
  36049146954245789597860, 36051090525048497072850, 36058151372573312388250, 36060103769845376980920, 36062089854707103990420,
  36064119969438288737250, 36065127911871263050400, 36066091084434790895600, 36067086485591138843200, 36068110466233484132600,
  36070099381466147742370, 36074066066654160819030, 36076103080550998754090, 36077119408543622226820, 36084092793241767553650,
  36090137235639959308190, 36092086393099097989890, 36093071879305372895750, 36094139671860785885700, 36100135732817928814810,
  36101121249957557336230, 36103134026562758507190, 36104106700728882246360, 36106094941689252548790, 36109159481875474551540,
  36111108777122530028800, 36115114102261111605120, 36123117397705289732050, 36125093675484101702050, 36126099667733362006730,
  36127087309275515107640, 36129107064405323955110, 36130093780051105382630, 36131074839205618483210, 36132091084434790895600,
  36133077252983047995830, 36134103080550998754090, 36135088948179196680450, 36136066066654160819030, 36137110578384192334000,
  36138139332845269128890, 36139101628250858065300, 36140133271487233425730, 36141086393099097989890, 36142126523506814508250,
  36143089473974025058260, 36144151372573312388250, 36145110466233484132600, 36146129777730818854520, 36148094793249026937000,
  36149081674666613372350, 36150173344819085750430, 36151097681708938025800, 36152089579310469612730, 36153072927553118151500,
  36154100620835160049980, 36155151372573312388250, 36156089403607147488000, 36157135732817928814810, 36158111339727345323530,
  36159108590491918709540, 36160162358696199069360, 36161114400790743101930, 36162107948959529573740, 36163114102261111605120,
  36164070369272928831210, 36165130169937950387330, 36168146954245789597860, 36169151372573312388250, 36171099381466147742370,
  36172119408543622226820, 36175089854707103990420, 36176103769845376980920, 36179127911871263050400, 36180119969438288737250,
  36182092793241767553650, 36184121249957557336230, 36186137235639959308190, 36187071879305372895750, 36188139671860785885700,
  36190094941689252548790, 36191122346154807508450, 36192106700728882246360, 36193159481875474551540, 36194108777122530028800,
  36195117397705289732050, 36196107934519093851400, 36198110922586431198780, 36199146264317074728340, 36203096640533863843510,
  36208083150599406183330, 36211137235639959308190, 36212103479154491686170, 36213109714538050345780, 36214100306386832973400,
  36215062680623201625060, 36225139004947040898980, 36228129036651097317300, 36229086589183811873640, 36234077613056105466560,
  36235103479154491686170, 36245100306386832973400, 36249109714538050345780, 36255102460731298996500, 36259084049142007497060,
  36264103479154491686170, 36273173344819085750430, 36274173344819085750430, 36275075012558890795820, 36282166413347280151000,
  36286120311770005159670, 36291090993864113166860, 36292112163847105336960, 36299111000711828566720, 36300101869226373855900,
  36302141989876926458930, 36305094465225719750980, 36310173344819085750430, 36314124072282234178390, 36317091055042652167300,
  36318173344819085750430, 36319108840114864308680, 36321080102772804498150, 36324118580183566435340, 36328112341629565549800,
  36330122593080933412160, 36331162358696199069360, 36335061899280995758730, 36339102705779471029750, 36341086787449077107470,
  36343115819092697494100, 36344126523506814508250, 36345141989876926458930, 36357149365866357766740, 36361159481875474551540,
  36367108636824047924420, 36368086787449077107470, 36373173344819085750430, 36381121249957557336230, 36382114428376967492720,
  36386130859866665256850, 36393173344819085750430, 36394093675484101702050, 36405128571450940968380, 36413146954245789597860,
  36420106374476609085600, 36423155427224393469880, 36424096359991206940980, 36426139671860785885700, 36427119318045267027650,
  36428112163847105336960, 36433166413347280151000, 36437126523506814508250, 36448139671860785885700, 36454145618931863352630,
  36460126431340263459000, 36461126340015427826270, 36464132401373463529430, 36470166413347280151000, 36474115819092697494100,
  36476147695325511135070, 36481099917027192431980, 36485141989876926458930, 36487110787318668216770, 36493152550403668952090,
  36495112847484533430860, 36498173344819085750430, 36501132401373463529430, 36506141989876926458930, 36510153885717595197310,
  36513166413347280151000, 36522112847484533430860, 36523065126058260826145, 36524120666237495117170, 36527106362138544596320,
  36530130718020315337280, 36538126805215584175200, 36544106362138544596320, 36554068920770251067410, 36555120614823500112960,
  36556101689884335141980, 36557151372573312388250, 36562092908185561811010, 36575089956979371328460, 36587138081213839588820]

def emitE12 : List Nat := [
  36600103971678273513620, 36603130304168153708740, 36604127806050169745030, 36606117286798422790460, 36611076105397698861190,
  36613136456024544611070, 36617080653067508779700, 36618147695325511135070, 36626119499868457859540, 36628094536775639001430,
  36629080054700068813620, 36635088109091101947680, 36637082749644263334440, 36638149365866357766740, 36639145012685645188280,
  36645144441101506788800, 36646135502922746567830, 36649087418102559829020, 36650084548702985930080, 36655072293196193403590,
  36659145012685645188280, 36664083535547009266670, 36667157250439961409430, 36671130718020315337280, 36674148495752587870430,
  36676089812204088411700, 36677112032554190919030, 36678127806050169745030, 36681082778756365409030, 36685112706966998874360,
  36686123238466144787870, 36692162358696199069360, 36703115203513767499770, 36705136456024544611070, 36706173344819085750430,
  36708135502922746567830, 36710068920770251067410, 36711120614823500112960, 36712101689884335141980, 36713092908185561811010,
  36716082778756365409030, 36718084548702985930080, 36719089956979371328460, 36720115203513767499770, 36722130304168153708740,
  36723135502922746567830, 36724103971678273513620, 36726127806050169745030, 36728138081213839588820, 36729173344819085750430,
  36731080054700068813620, 36732117286798422790460, 36733080653067508779700, 36734147695325511135070, 36735123238466144787870,
  36738136456024544611070, 36739076105397698861190, 36740119499868457859540, 36741094536775639001430, 36742088109091101947680,
  36743135502922746567830, 36744087418102559829020, 36745082749644263334440, 36746144441101506788800, 36747149365866357766740,
  36749145012685645188280, 36751145012685645188280, 36752157250439961409430, 36753072293196193403590, 36755083535547009266670,
  36756136456024544611070, 36757112032554190919030, 36758089812204088411700, 36760127806050169745030, 36761112706966998874360,
  36762162358696199069360, 36763100952669347952370, 36764107580123395268200, 36766093099470369693480, 36767093889264803215550,
  36771101236634551028240, 36774077603321037595290, 36776103196675572995000, 36777101090004357927500, 36779129650340561080220,
  36781093099470369693480, 36782129650340561080220, 36783101090004357927500, 36784093762547162527310, 36785093537740877053750,
  36786089871284964507050, 36793067267588784935500, 36797113864469193943980, 36798070226002084248720, 36801092821854090363980,
  36802173344819085750430, 36804166413347280151000, 36805098908182254594530, 36807057566679837029570, 36808108667831824706900,
  36814086443443221774500, 36816076520775313862060, 36817071799633012378150, 36820100711522910982070, 36824096626551106962620,
  36827065384841528301640, 36828075144846665379410, 36829112119890990606570, 36830081789145624461530, 36831099025899917672430,
  36834118622112349035690, 36836130859866665256850, 36837146264317074728340, 36838115445217376777900, 36840166413347280151000,
  36841114209789029367740, 36842094570847222217580, 36843085351218253951360, 36845108714524516543740, 36848075038339022158740,
  36853173344819085750430, 36855094635523118199010, 36857080102772804498150, 36861112097985176808400, 36864087592085060822810,
  36865084895689576754950, 36866090016924401570860, 36867102477439740644660, 36869126710428144629770, 36870108529047792986120,
  36873078163627624479580, 36874092493031605005060, 36875155427224393469880, 36877142899594708516200, 36879096109194362970740,
  36880096305716989587320, 36881152550403668952090, 36882096524603977481700, 36884086119018874338560, 36886137791338470856300,
  36887125723079737772880, 36890066857529519208360, 36891117286798422790460, 36893106739067587353580, 36894118090289694432600,
  36895070414215305996130, 36896069783276464464570, 36898097074244915561110, 36899081789145624461530, 36902126159830372799500,
  36913079757215314805880, 36914065384841528301640, 36917102027833981081330, 36920103045089968686570, 36923108467978900904340,
  36924110634934767167440, 36926153885717595197310, 36929125982834601805480, 36930106972238772905860, 36935084976720261766800,
  36938071610817291987120, 36939076520775313862060, 36941081998353809680600, 36942057566679837029570, 36943116240548912001740,
  36944140763853705535610, 36946166413347280151000, 36947052989959436204760, 36948070226002084248720, 36949112119890990606570,
  36951112871097295287650, 36952173344819085750430, 36953103080550998754090, 36955173344819085750430, 36956092493031605005060,
  36958096524603977481700, 36960075144846665379410, 36962131003754039777840, 36963094620267585110640, 36965103080550998754090,
  36969090016924401570860, 36973102722902762884870, 36974143387496350210530, 36978099025899917672430, 36981128571450940968380,
  36983092821854090363980, 36984078163627624479580, 36986112871097295287650, 36988113864469193943980, 36989135278194188047230,
  36991092198580221549450, 36992109594570887469480, 36993108667831824706900, 36995118250935719470660, 36996096626551106962620,
  36999114209789029367740, 37000129650340561080220, 37002067267588784935500, 37007108467978900904340, 37008126159830372799500,
  37009111339727345323530, 37011120212759295332570, 37013128126933315260040, 37015166413347280151000, 37017173344819085750430,
  37019166413347280151000, 37025153885717595197310, 37026149365866357766740, 37027097486930868430100, 37028173344819085750430,
  37030075899900875293730, 37034103259767264927640, 37038116108968066226620, 37040173344819085750430, 37041135732817928814810,
  37044173344819085750430, 37045141989876926458930, 37048113786445391102140, 37049140386450425707140, 37050121526983582829580,
  37051098306411618760930, 37057095347285902877970, 37059173344819085750430, 37061120563672493445270, 37063152550403668952090,
  37066094863288223755190, 37070088099159628293930, 37073116925748376369310, 37079166413347280151000, 37084173344819085750430,
  37085138081213839588820, 37089094704462495025940, 37090146264317074728340, 37094145618931863352630, 37095162358696199069360,
  37096055011772945663270, 37101116475065522352250, 37108166413347280151000, 37109116108968066226620, 37112117250101133900840,
  37117074830774359091410, 37118159481875474551540, 37122103590679811190910, 37124159481875474551540, 37129078114498286430520,
  37138140386450425707140, 37142162358696199069360, 37145112032554190919030, 37154144441101506788800, 37159120212759295332570,
  37165116925748376369310, 37168098306411618760930, 37170117250101133900840, 37172121526983582829580, 37187173344819085750430,
  37190173344819085750430, 37192145618931863352630, 37193128685737899204600, 37194153885717595197310, 37195121696959346515300,
  37196111523970018584130, 37197079854236172870380, 37200124292071301366140, 37202082230782844588840, 37210106906921754273700,
  37214147695325511135070, 37218145012685645188280, 37219129906764867213600, 37221133271487233425730, 37225151372573312388250,
  37226121470961027342880, 37228095710355198476820, 37230118050528210636200, 37231111523970018584130, 37232125061681712727420,
  37233105602580222174290, 37237114483778771248870, 37238111238818315503900, 37239097650701161243330, 37240085669970339255850,
  37247110768143206924050, 37255098518000804203930, 37257096919577743421430, 37259113995877129554570, 37260115692908057902000,
  37264143900429294086030, 37266085526194190160980, 37274109870926989190330, 37275111881526509061470, 37276107805485045492320,
  37290159481875474551540, 37291091089788110081270, 37292105602580222174290, 37294137509629701189340, 37306131755988252153720,
  37312110768143206924050, 37313113281287489733110, 37319092908185561811010, 37321126431340263459000, 37322082169149367512160,
  37323082169149367512160, 37324055086306909161380, 37325066910113006419385, 37326088776758671739000, 37327057953917443342080,
  37329070985301408152415, 37332173344819085750430, 37333145618931863352630, 37335099223215736298390, 37336108197692177025150,
  37340173344819085750430, 37341084957850962315150, 37347126340015427826270, 37351136709202624453980, 37353134843343068649850,
  37356134632808976671520, 37365103637518304315180, 37367173344819085750430, 37369162358696199069360, 37376153885717595197310,
  37379151372573312388250, 37380173344819085750430, 37383173344819085750430, 37385104602834131217490, 37389114595511777230130,
  37392137235639959308190, 37396116240548912001740, 37397122224941202185010, 37406092121106651684900, 37411115293469396585560,
  37414134843343068649850, 37422166413347280151000, 37424173344819085750430, 37428105717524016431650, 37431153885717595197310,
  37432137235639959308190, 37433149365866357766740, 37434105648399317225420, 37438131913471821835110, 37439128801346123215360,
  37440114345845549925520, 37445147695325511135070, 37449122224941202185010, 37453166413347280151000, 37457139332845269128890,
  37463132569444646693240, 37467129906764867213600, 37470126900910094336700, 37476108138607810163470, 37478159481875474551540,
  37484143387496350210530, 37492099338613312039090, 37496173344819085750430, 37499140386450425707140, 37504090593602783585340,
  37507124072282234178390, 37509099923501779903230, 37518157250439961409430, 37521139332845269128890, 37523121470961027342880,
  37526127597709300716600, 37528095886136787827760, 37532100421447324011660, 37541162358696199069360, 37542147695325511135070,
  37544123928394859657400, 37547173344819085750430, 37548119139469093027590, 37550125222975532026270, 37555093043978143074820,
  37559078727604438734120, 37561119826237750989770, 37563155427224393469880, 37564166413347280151000, 37569119778956339030320,
  37573123646686089990430, 37574137509629701189340, 37575136968957488486570, 37576173344819085750430, 37586081190544975503030,
  37599150318968155809980, 37604152550403668952090, 37610093198155381101020, 37614108109196024255320, 37615150318968155809980,
  37616121415250576848330, 37624127911871263050400, 37628093558281794923130, 37633162358696199069360, 37636079752044238244900,
  37638173344819085750430, 37648119051362796206030, 37653119273101371149240, 37656108331922380346550, 37658108138607810163470,
  37659146264317074728340, 37663173344819085750430, 37664110263834670655130, 37665173344819085750430, 37666081975728146847440,
  37670103009754242873460, 37672123372696348109280, 37673173344819085750430, 37675101892857735778720, 37678120563672493445270,
  37679082897239773885390, 37681173344819085750430, 37683134224589031468980, 37688166413347280151000, 37694155427224393469880,
  37697131297892891840780, 37703127701337171072070, 37707094394184104834710, 37709132569444646693240, 37716115661609127812710,
  37723141989876926458930, 37733162358696199069360, 37738140386450425707140, 37740129650340561080220, 37744155427224393469880,
  37749085740288622597710, 37750142899594708516200, 37754157250439961409430, 37758143387496350210530, 37762125222975532026270,
  37770106227415135188640, 37775142899594708516200, 37782092579665810227160, 37784144441101506788800, 37794143900429294086030,
  37795153885717595197310, 37799143900429294086030, 37804122346154807508450, 37806078324425427891460, 37808147695325511135070,
  37811138081213839588820, 37813131600946386794070, 37827138379743471085630, 37832098625498303299220, 37834157250439961409430,
  37840173344819085750430, 37841139671860785885700, 37847137791338470856300, 37848122846259013255070, 37852144441101506788800,
  37854132401373463529430, 37855118250935719470660, 37857086860850315434610, 37858113890612999684700, 37860142899594708516200,
  37864155427224393469880, 37877132236080444017330, 37881145012685645188280, 37904132914306407404940, 37907157250439961409430,
  37912079610027992216805, 37913129524552739011620, 37927119183815063706240, 37931173344819085750430, 37934139004947040898980,
  37938121470961027342880, 37939144441101506788800, 37941083745278243069450, 37944115233409155983430, 37946131149742033989370,
  37950166413347280151000, 37956107876964978145200, 37964140386450425707140, 37969099338613312039090, 37984132401373463529430,
  37987117661374048139460, 37995098925751805234200, 38000127495144299044720, 38002135732817928814810, 38009157250439961409430,
  38012113890612999684700, 38013120311770005159670, 38014125222975532026270, 38015109015418158358650, 38023173344819085750430,
  38024084957850962315150, 38025108197692177025150, 38026099223215736298390, 38028145618931863352630, 38029173344819085750430,
  38030134632808976671520, 38031136709202624453980, 38034134843343068649850, 38035126340015427826270, 38037162358696199069360,
  38039103637518304315180, 38040151372573312388250, 38041115293469396585560, 38043134843343068649850, 38044147695325511135070,
  38045114595511777230130, 38046116240548912001740, 38047079610027992216805, 38048104602834131217490, 38049136968957488486570]

def emitE13 : List Nat := [
  38050093558281794923130, 38052137235639959308190, 38053127495144299044720, 38054100027669388485790, 38055092121106651684900,
  38056143900429294086030, 38057108138607810163470, 38061173344819085750430, 38062122224941202185010, 38063153885717595197310,
  38064105648399317225420, 38065081975728146847440, 38066159481875474551540, 38067132569444646693240, 38068153885717595197310,
  38069126710428144629770, 38073137235639959308190, 38074126900910094336700, 38075120311770005159670, 38076143387496350210530,
  38078114345845549925520, 38079128801346123215360, 38080131913471821835110, 38081083745278243069450, 38082139332845269128890,
  38083105717524016431650, 38084132401373463529430, 38085129906764867213600, 38088173344819085750430, 38089122224941202185010,
  38091166413347280151000, 38092166413347280151000, 38093149365866357766740, 38094115233409155983430, 38096119139469093027590,
  38102108109196024255320, 38107131149742033989370, 38108099923501779903230, 38109119778956339030320, 38111147695325511135070,
  38112143900429294086030, 38114127597709300716600, 38115139332845269128890, 38119132236080444017330, 38120121470961027342880,
  38124140386450425707140, 38125095886136787827760, 38126108138607810163470, 38127173344819085750430, 38128173344819085750430,
  38129162358696199069360, 38130118250935719470660, 38131124072282234178390, 38133123928394859657400, 38134090593602783585340,
  38136107876964978145200, 38138093198155381101020, 38140166413347280151000, 38142098625498303299220, 38143137791338470856300,
  38144078727604438734120, 38145092579665810227160, 38146121415250576848330, 38148152550403668952090, 38149094394184104834710,
  38150150318968155809980, 38152119826237750989770, 38153166413347280151000, 38155081190544975503030, 38156123646686089990430,
  38159119183815063706240, 38160093043978143074820, 38161155427224393469880, 38163150318968155809980, 38166173344819085750430,
  38167157250439961409430, 38168173344819085750430, 38169082897239773885390, 38170123372696348109280, 38171146264317074728340,
  38172173344819085750430, 38174162358696199069360, 38175119273101371149240, 38176173344819085750430, 38177101892857735778720,
  38178120563672493445270, 38179113890612999684700, 38180108331922380346550, 38181119051362796206030, 38182103009754242873460,
  38184131297892891840780, 38188173344819085750430, 38189110263834670655130, 38190085740288622597710, 38191127911871263050400,
  38192134224589031468980, 38194162358696199069360, 38196127701337171072070, 38197122846259013255070, 38198142899594708516200,
  38199115661609127812710, 38201129650340561080220, 38202143387496350210530, 38203141989876926458930, 38206155427224393469880,
  38208132569444646693240, 38209125222975532026270, 38210142899594708516200, 38215078324425427891460, 38217144441101506788800,
  38220173344819085750430, 38221138081213839588820, 38224122346154807508450, 38225106227415135188640, 38226147695325511135070,
  38227131600946386794070, 38228140386450425707140, 38230113890612999684700, 38231144441101506788800, 38235132401373463529430,
  38236086860850315434610, 38237139671860785885700, 38238138379743471085630, 38240173344819085750430, 38243132914306407404940,
  38246157250439961409430, 38249157250439961409430, 38250145012685645188280, 38251129524552739011620, 38253144441101506788800,
  38255121470961027342880, 38256139004947040898980, 38258173344819085750430, 38259117661374048139460, 38262135732817928814810,
  38263054570939018745780, 38271054570939018745780, 38272055560356278298860, 38274120927348935154020, 38275101806481069962020,
  38278173344819085750430, 38281086790932184074080, 38283064278839322122000, 38286137509629701189340, 38287131003754039777840,
  38290096506179283186140, 38291056414122555586680, 38292128801346123215360, 38296113110343156140100, 38305122407317077682820,
  38307085879245540315400, 38309090980613813096520, 38312141564280782270980, 38313129036651097317300, 38316162358696199069360,
  38317130859866665256850, 38321099705684071692250, 38331155427224393469880, 38334148495752587870430, 38344131003754039777840,
  38346089897391541574980, 38347140386450425707140, 38348149365866357766740, 38352118291503726426810, 38355159481875474551540,
  38356137509629701189340, 38357114075558826046330, 38358112918490748926620, 38364061368701098911560, 38369138687460057753180,
  38370093889264803215550, 38373150318968155809980, 38376055560356278298860, 38377120927348935154020, 38378101806481069962020,
  38379173344819085750430, 38381086790932184074080, 38382075722123579544530, 38383112918490748926620, 38384131003754039777840,
  38385131003754039777840, 38386096506179283186140, 38387137509629701189340, 38388056414122555586680, 38389128801346123215360,
  38391098034655764971280, 38392113110343156140100, 38393091339191115664800, 38394141564280782270980, 38395076309708480715910,
  38396150318968155809980, 38397129036651097317300, 38398130859866665256850, 38399159481875474551540, 38400090980613813096520,
  38401085879245540315400, 38402122407317077682820, 38404109177496260627170, 38405099705684071692250, 38406162358696199069360,
  38408148495752587870430, 38411162358696199069360, 38414155427224393469880, 38416138687460057753180, 38417149365866357766740,
  38420089897391541574980, 38421140386450425707140, 38422137509629701189340, 38423118291503726426810, 38425114075558826046330,
  38428123372696348109280, 38431062597513763358990, 38433166413347280151000, 38442113657743485896780, 38446143387496350210530,
  38449109906014744487130, 38450080891605677036150, 38451066258810251441520, 38452101705352242324970, 38453079244713414702930,
  38454095136410286677010, 38459096729548272165270, 38463111079452392875790, 38464101612901660884450, 38466101377953377406950,
  38468102164657041097100, 38469066624382641993480, 38470078066337072498390, 38471131913471821835110, 38472107400684488252660,
  38473133832381899936160, 38475106142617534397490, 38476134632808976671520, 38477079739988781691420, 38480081116202560451890,
  38485115323635331979800, 38488133832381899936160, 38493115323635331979800, 38495147695325511135070, 38497173344819085750430,
  38498057400594093616320, 38499079244713414702930, 38500077333164052302115, 38505077169445956459380, 38506112341629565549800,
  38512101705352242324970, 38514113062033883443450, 38515107400684488252660, 38517078674084822910960, 38518096814614947708540,
  38519092542444923583420, 38520078066337072498390, 38525066258810251441520, 38533106893909390694000, 38534086477147331873550,
  38538062597513763358990, 38539151372573312388250, 38541128458455388429030, 38542095136410286677010, 38543092091468218607540,
  38544096580082621858880, 38548098728415163664690, 38551142434394552167290, 38552113838393559873160, 38553098849839031921950,
  38555066624382641993480, 38556083649400231517920, 38567153885717595197310, 38568173344819085750430, 38570077169445956459380,
  38576173344819085750430, 38577096580082621858880, 38580131913471821835110, 38582087614756523395930, 38584087614756523395930,
  38585153885717595197310, 38588141989876926458930, 38589124746695042133720, 38590074973478565889370, 38592102369330579602500,
  38593104960767077277000, 38596079980376598031350, 38597089313536734467790, 38598073734804498383095, 38599122045831936519700,
  38601123440493217963070, 38603124746695042133720, 38604159481875474551540, 38605117623278763972800, 38606131913471821835110,
  38607126159830372799500, 38610173344819085750430, 38613094275664198964580, 38617086995056815024230, 38619126159830372799500,
  38620083437911986588150, 38622093043978143074820, 38626077901008251690635, 38627074973478565889370, 38632083937217736866590,
  38633162358696199069360, 38634085680876315253070, 38639099775636662190230, 38642144441101506788800, 38643113480299032906050,
  38646109941226048472910, 38647085996000165275600, 38649121249957557336230, 38651077938311020914570, 38654095425459516369850,
  38656093534321489090870, 38657140763853705535610, 38660100974228824503070, 38662112660563203309340, 38663087087931210055080,
  38664116961272392412980, 38665106536272297848300, 38669112454370331281980, 38670133091302178398950, 38671128346722382447780,
  38673151372573312388250, 38675132236080444017330, 38678090911993855266700, 38681173344819085750430, 38684104960767077277000,
  38686083743993804046430, 38695095425459516369850, 38701124218270228389920, 38706079871660815717830, 38712101544120342722480,
  38717140763853705535610, 38718129400327539026050, 38722113480299032906050, 38724124218270228389920, 38728083845976227970500,
  38738081059087683378020, 38739121249957557336230, 38742081593542923546050, 38745078969262859145970, 38746121249957557336230,
  38747144441101506788800, 38748078969262859145970, 38750077298047862785410, 38752086384732996941400, 38753110749004445101200,
  38754055044272256303060, 38757130859866665256850, 38760130859866665256850, 38761071660564830677280, 38771166413347280151000,
  38772119273101371149240, 38774130169937950387330, 38780114736956851091780, 38784166413347280151000, 38789123040439871826080,
  38795098137054935122470, 38797117509855997933440, 38799121470961027342880, 38802162358696199069360, 38808109783742478791520,
  38816140386450425707140, 38829106662536601576400, 38831149365866357766740, 38849139671860785885700, 38857149365866357766740,
  38859106829100349853170, 38860114483778771248870, 38867112296886761600590, 38873137509629701189340, 38876119408543622226820,
  38878140386450425707140, 38881142434394552167290, 38886106829100349853170, 38887114483778771248870, 38889112296886761600590,
  38890137509629701189340, 38891140386450425707140, 38892119408543622226820, 38899074501262083549420, 38901100503471023798380,
  38902124669474581194620, 38907100503471023798380, 38911069765803661988880, 38913080510769657418560, 38914084155639286663660,
  38915087601525257879980, 38917074621238912358360, 38918086589183811873640, 38919146264317074728340, 38920072563690058794315,
  38922124982000016235660, 38924105309766509667050, 38926150318968155809980, 38927145618931863352630, 38928102027833981081330,
  38929129777730818854520, 38930145012685645188280, 38931080531240493635800, 38932143900429294086030, 38935120927348935154020,
  38936073040093442844265, 38940114651849954412700, 38945134026562758507190, 38948131600946386794070, 38950141156060837068440,
  38957059059711947471790, 38960104759168737836780, 38962151372573312388250, 38967173344819085750430, 38968102205257990090090,
  38969135968122902916750, 38971090696036457732950, 38982091932921151173520, 38988061457227102290360, 38989076097024492630350,
  38990125637972841093790, 38991100824279567222300, 38994173344819085750430, 38999173344819085750430, 39000080322918829689820,
  39003109958878303718620, 39006066782819381415800, 39013129156413007784470, 39015083344922661143190, 39019113530676973205630,
  39020145618931863352630, 39023080447759812181210, 39024140022773983998400, 39025113037966483137800, 39029080510769657418560,
  39030084155639286663660, 39031087601525257879980, 39032146264317074728340, 39033074621238912358360, 39034086589183811873640,
  39035072563690058794315, 39036124982000016235660, 39037129777730818854520, 39038083344922661143190, 39039080531240493635800,
  39040150318968155809980, 39041145012685645188280, 39042105309766509667050, 39043145618931863352630, 39044102027833981081330,
  39045113037966483137800, 39046073040093442844265, 39047120927348935154020, 39048102205257990090090, 39049134026562758507190,
  39050104759168737836780, 39051151372573312388250, 39052114651849954412700, 39053131448271665486180, 39054173344819085750430,
  39055141156060837068440, 39056131600946386794070, 39057090696036457732950, 39059135968122902916750, 39060173344819085750430,
  39062097901498005213550, 39063091932921151173520, 39064061457227102290360, 39065148495752587870430, 39066125637972841093790,
  39068100824279567222300, 39069076097024492630350, 39072109958878303718620, 39074129156413007784470, 39076113530676973205630,
  39077145618931863352630, 39078140022773983998400, 39080072849046501670210, 39087128801346123215360, 39098150318968155809980,
  39100124218270228389920, 39108111945973563487890, 39110130859866665256850, 39118072849046501670210, 39119150318968155809980,
  39122128801346123215360, 39125124218270228389920, 39128111945973563487890, 39129130859866665256850, 39130133091302178398950,
  39131080768763441317470, 39134080768763441317470, 39135077527848981241470, 39138120980399457450950, 39139166413347280151000,
  39141173344819085750430, 39144150318968155809980, 39145126616530741131380, 39146111945973563487890, 39149125061681712727420,
  39151082544780383268640, 39154105625463527354420, 39156141564280782270980, 39164136209098418707360, 39165115055362909648370]

def emitE14 : List Nat := [
  39166088255225220859100, 39167173344819085750430, 39171134026562758507190, 39173100246004227502570, 39177112847484533430860,
  39178075830971342488740, 39180120462148778805090, 39184091325475573808210, 39185130578157895589890, 39186123040439871826080,
  39187108036042808491590, 39192079587118474751250, 39194094242582014776990, 39198126431340263459000, 39201131448271665486180,
  39208077153486383980220, 39214134843343068649850, 39221137791338470856300, 39230114129034889312280, 39235122846259013255070,
  39240136456024544611070, 39241138379743471085630, 39243109063766358904480, 39244141156060837068440, 39250106436396311564800,
  39252166413347280151000, 39253162358696199069360, 39255150318968155809980, 39262131149742033989370, 39268166413347280151000,
  39269120980399457450950, 39270173344819085750430, 39272126616530741131380, 39274111945973563487890, 39276125061681712727420,
  39277082544780383268640, 39278105625463527354420, 39279126431340263459000, 39280088255225220859100, 39281115055362909648370,
  39282136209098418707360, 39283173344819085750430, 39284141564280782270980, 39285120462148778805090, 39286106436396311564800,
  39287112847484533430860, 39290134026562758507190, 39292100246004227502570, 39293130578157895589890, 39295108036042808491590,
  39296166413347280151000, 39297123040439871826080, 39301131448271665486180, 39302077153486383980220, 39304109063766358904480,
  39307131149742033989370, 39309122846259013255070, 39311114129034889312280, 39312136456024544611070, 39313138379743471085630,
  39315159481875474551540, 39316141156060837068440, 39317166413347280151000, 39318067349763003872870, 39319133454978620107700,
  39321083127628955413440, 39333129906764867213600, 39336104917986263366210, 39340071731402470493110, 39341117854058236798240,
  39342122846259013255070, 39347099430666738996860, 39348122407317077682820, 39361106586586869401960, 39376099756510102326900,
  39378105177460279800760, 39381099139030031642430, 39384173344819085750430, 39385151372573312388250, 39387098878968094173190,
  39389107197563083712830, 39391148495752587870430, 39405117286798422790460, 39409146264317074728340, 39416162358696199069360,
  39423103433050214538350, 39425118373136832818420, 39428173344819085750430, 39438101060934570014400, 39439136456024544611070,
  39446135968122902916750, 39449100232635241554160, 39467120262142111738390, 39469138379743471085630, 39470145618931863352630,
  39472089358470532829410, 39479110749004445101200, 39486143387496350210530, 39489131600946386794070, 39491150318968155809980,
  39492123372696348109280, 39493104886020333109950, 39498112409121385299070, 39501131913471821835110, 39509129277626613107900,
  39511071407530611922120, 39514089783968775535640, 39515122782361032267350, 39519102843593883059850, 39522114967514614091040,
  39524129777730818854520, 39525118622112349035690, 39530139004947040898980, 39532071731402470493110, 39533117854058236798240,
  39535122407317077682820, 39536099430666738996860, 39537104886020333109950, 39539106586586869401960, 39540114967514614091040,
  39542098878968094173190, 39543148495752587870430, 39544151372573312388250, 39545105177460279800760, 39547099756510102326900,
  39548107197563083712830, 39550099139030031642430, 39551122782361032267350, 39552173344819085750430, 39553131913471821835110,
  39554097785768149636980, 39556129277626613107900, 39557112409121385299070, 39558146264317074728340, 39559117286798422790460,
  39562139004947040898980, 39563118373136832818420, 39564071407530611922120, 39566162358696199069360, 39567103433050214538350,
  39568136456024544611070, 39569101060934570014400, 39575100232635241554160, 39576138379743471085630, 39578110749004445101200,
  39579135968122902916750, 39580131600946386794070, 39581145618931863352630, 39582120262142111738390, 39584150318968155809980,
  39585143387496350210530, 39586123372696348109280, 39588102843593883059850, 39589118622112349035690, 39591129777730818854520,
  39592087677369383295600, 39608111099234792996850, 39612108467978900904340, 39621118964025996518480, 39631118964025996518480,
  39635103553366335062340, 39636056565082154813180, 39640067568516214066685, 39649151372573312388250, 39654114651849954412700,
  39659155427224393469880, 39663119778956339030320, 39675124145009827469190, 39683133641899950229220, 39699121869874317615900,
  39711112119890990606570, 39714121869874317615900, 39715166413347280151000, 39717078483296367175670, 39719091339191115664800,
  39721162358696199069360, 39726109177496260627170, 39729095347285902877970, 39730166413347280151000, 39739173344819085750430,
  39740094364422178104250, 39745110787318668216770, 39746091033720682468910, 39747131755988252153720, 39748102336299996309940,
  39749126805215584175200, 39751132401373463529430, 39752142899594708516200, 39753140386450425707140, 39758140386450425707140,
  39759096492383005992100, 39761173344819085750430, 39764105671387833096520, 39768132401373463529430, 39770075163344032059310,
  39791095583664314763010, 39796134026562758507190, 39811155427224393469880, 39822141564280782270980, 39825143387496350210530,
  39826148495752587870430, 39851144441101506788800, 39853153885717595197310, 39854083901925889243460, 39873151372573312388250,
  39881135278194188047230, 39882137509629701189340, 39894173344819085750430, 39895162358696199069360, 39899153885717595197310,
  39906115661609127812710, 39908131755988252153720, 39911148495752587870430, 39912113355453466283610, 39933150318968155809980,
  39949114483778771248870, 39976153885717595197310, 39977157250439961409430, 39981101251416519721340, 39985152550403668952090,
  39986121359848773092180, 39995133271487233425730, 39998157250439961409430, 40008153885717595197310, 40009134426616104644180,
  40018145012685645188280, 40020114708507329769470, 40023120017631153096750, 40024106423981660684160, 40039152550403668952090,
  40055132569444646693240, 40056145012685645188280, 40058131149742033989370, 40060075163344032059310, 40065095583664314763010,
  40066134026562758507190, 40070155427224393469880, 40071141564280782270980, 40072145012685645188280, 40075148495752587870430,
  40077143387496350210530, 40081153885717595197310, 40091144441101506788800, 40092083901925889243460, 40094162358696199069360,
  40095106423981660684160, 40096151372573312388250, 40097131149742033989370, 40098152550403668952090, 40100135278194188047230,
  40104137509629701189340, 40107150318968155809980, 40109173344819085750430, 40114131755988252153720, 40115148495752587870430,
  40117115661609127812710, 40119153885717595197310, 40120113355453466283610, 40132132569444646693240, 40133114483778771248870,
  40140121359848773092180, 40141101251416519721340, 40142153885717595197310, 40144157250439961409430, 40148157250439961409430,
  40149153885717595197310, 40150134426616104644180, 40151133271487233425730, 40157114708507329769470, 40158120017631153096750,
  40159145012685645188280, 40162152550403668952090, 40165096833617328723440, 40169124441327803532900, 40179087340511185887500,
  40180093271148405917130, 40182151372573312388250, 40199129156413007784470, 40201112386573461428200, 40213173344819085750430,
  40219150318968155809980, 40227104428560115227900, 40230106700728882246360, 40232116373884220696400, 40240140022773983998400,
  40251101295893983703700, 40255109594570887469480, 40258173344819085750430, 40273097959869091615790, 40274166413347280151000,
  40285106118521137195960, 40288135058405120859500, 40289121087352348618430, 40300085957464472115710, 40306116509021412363620,
  40329128801346123215360, 40339143387496350210530, 40344141564280782270980, 40346122718868755480770, 40361134632808976671520,
  40367118622112349035690, 40372098202272557586330, 40379116373884220696400, 40383136209098418707360, 40386136456024544611070,
  40407118877445369087340, 40409141564280782270980, 40410166413347280151000, 40421140022773983998400, 40431147695325511135070,
  40434128458455388429030, 40436139332845269128890, 40440173344819085750430, 40441094275664198964580, 40442123305356026295850,
  40474173344819085750430, 40475134224589031468980, 40477133271487233425730, 40478121811903140772650, 40479096833617328723440,
  40480124441327803532900, 40481093043978143074820, 40482151372573312388250, 40483093271148405917130, 40485118877445369087340,
  40486112386573461428200, 40488129156413007784470, 40490104428560115227900, 40493116373884220696400, 40495106700728882246360,
  40499150318968155809980, 40501173344819085750430, 40502140022773983998400, 40503141564280782270980, 40505140022773983998400,
  40506173344819085750430, 40509109594570887469480, 40510121811903140772650, 40511101295893983703700, 40514133271487233425730,
  40515097959869091615790, 40516135058405120859500, 40517106118521137195960, 40518166413347280151000, 40519139332845269128890,
  40521121087352348618430, 40522116509021412363620, 40523143387496350210530, 40527085957464472115710, 40529128801346123215360,
  40533141564280782270980, 40535122718868755480770, 40536116373884220696400, 40538136209098418707360, 40540134632808976671520,
  40542136456024544611070, 40548098202272557586330, 40550173344819085750430, 40552166413347280151000, 40553147695325511135070,
  40555128458455388429030, 40556173344819085750430, 40557123305356026295850, 40560094275664198964580, 40563134224589031468980,
  40565141989876926458930, 40572098757192161940850, 40573093630509108056930, 40575090838618264003510, 40578155427224393469880,
  40583162358696199069360, 40594129777730818854520, 40595098411646597128990, 40599077053654144310240, 40607102100036460816200,
  40613088971981003871080, 40614088971981003871080, 40617145618931863352630, 40632145618931863352630, 40635091645792612158980,
  40636053944603153703560, 40639152550403668952090, 40643091216423238985600, 40644091216423238985600, 40653147695325511135070,
  40654089549428824576010, 40657091642962556954030, 40660126249517072627100, 40664088989327061993160, 40667128236224020581930,
  40668118791607932173430, 40669122593080933412160, 40670059915384468047925, 40672128126933315260040, 40674144441101506788800,
  40680069234842224412440, 40692106536272297848300, 40697145618931863352630, 40701152550403668952090, 40702152550403668952090,
  40718099655115063802500, 40720110119166686477600, 40723094608841188895050, 40727166413347280151000, 40736098809200369316700,
  40748135732817928814810, 40756147695325511135070, 40761147695325511135070, 40763109526658911689460, 40766129400327539026050,
  40778084450357432567560, 40779101258815706148460, 40784084450357432567560, 40786093106019158401660, 40788152550403668952090,
  40800162358696199069360, 40801084286307273670240, 40806126070940898627040, 40810128346722382447780, 40812135968122902916750,
  40818145618931863352630, 40831093106019158401660, 40832152550403668952090, 40836084286307273670240, 40838162358696199069360,
  40840126070940898627040, 40841135968122902916750, 40842128346722382447780, 40843145618931863352630, 40845073413364841083800,
  40848114345845549925520, 40849173344819085750430, 40852151372573312388250, 40853127293117225869530, 40857073413364841083800,
  40858151372573312388250, 40859127293117225869530, 40860105740672174916150, 40863105740672174916150]

/-- `emit_P['E']`, jieba/finalseg/prob_emit.py -/
def emitE : List Nat :=
  emitE0 ++ ( emitE1 ++ ( emitE2 ++ ( emitE3 ++ ( emitE4 ++ ( emitE5 ++ ( emitE6 ++ ( emitE7 ++ ( emitE8 ++ ( emitE9 ++ (
  emitE10 ++ ( emitE11 ++ ( emitE12 ++ ( emitE13 ++ (emitE14))))))))))))))

def emitS0 : List Nat := [
  8758158288656811312820, 19968049236898212087700, 19969090245283613476330, 19970165220128616912270, 19971082694364697957750,
  19974165220128616912270, 19975069267162582384200, 19976102691460511519440, 19977065569129400275750, 19978047540537820847115,
  19979056225550124588680, 19980145761027126359140, 19981044203817098045635, 19982052260997821049670, 19984104138770077795500,
  19985099275994019414480, 19986165220128616912270, 19987087029793926584790, 19988079588907383865894, 19989122247274554724350,
  19990084320703704550760, 19991152692498931958590, 19992100786768336609250, 19993113600881200487440, 19994087916184069163900,
  19995104161041801923750, 19996074016519033345670, 19997092752884658892900, 19998107459097254554000, 19999158288656811312820,
  20000172151600422511700, 20002092569328499288600, 20004065459488663367940, 20005093553608616890620, 20006150179354649149520,
  20007102944885380024880, 20008131042861780778600, 20010054747962616838650, 20011117902100247697690, 20012161165477535830630,
  20013048135576204407300, 20016105507510219007640, 20018103368335739598470, 20019141241175888928560, 20020092742202799233800,
  20022135262805881372350, 20024104593911202669170, 20025093542036773747820, 20026046172074842568410, 20027076102133055017000,
  20029101720001262628320, 20030084346799352178760, 20032165220128616912270, 20034145761027126359140, 20035087171496702517080,
  20037082733529238880090, 20039124877722235388320, 20040091275197544721890, 20041085796506240168920, 20042156057221298170710,
  20043053589498839410150, 20044097886109698538670, 20045108215692883005400, 20046099716470675856900, 20047112014448862083700,
  20048090080308741798460, 20050123868463049488700, 20051124529861074534160, 20052108469728559006800, 20053150179354649149520,
  20054107758096711510730, 20055130407727723555350, 20056088842964290264280, 20057103555451385969700, 20060133031370368230260,
  20061082275882918841250, 20062105230762997445440, 20063045777888635818630, 20064101118379797250600, 20065077160382023799070,
  20066154234005730231160, 20069154234005730231160, 20070073633342730389355, 20072172151600422511700, 20073124276682994691260,
  20074135262805881372350, 20076135015879755468640, 20077158288656811312820, 20080079532714083944125, 20081081876613623158310,
  20083104877283174003160, 20084152692498931958590, 20085161165477535830630, 20087172151600422511700, 20088156057221298170710,
  20089165220128616912270, 20090138829555320759680, 20091165220128616912270, 20092172151600422511700, 20093172151600422511700,
  20094098685048790746330, 20095172151600422511700, 20096158288656811312820, 20098081876613623158310, 20099127378232277729650,
  20102035233618135136173, 20104102416170227310310, 20105089616720139052660, 20106149125749492571260, 20107065058888276515940,
  20108070441293511041490, 20109119948042171728470, 20110056423066687010550, 20111098499799162301600, 20112172151600422511700,
  20113084584776209846380, 20114095890772841787900, 20115129666648002018120, 20116075559758388648800, 20117099289683275487900,
  20118158288656811312820, 20119165220128616912270, 20120139962842173829710, 20121139962842173829710, 20122085514451981721680,
  20123074215431608507560, 20124142194277686971800, 20125154234005730231160, 20126146502106847896340, 20127120111533551743770,
  20129095148648388310540, 20130122523154119912640, 20131128976719287148600, 20132085113213225609240, 20133119421604836874260,
  20134080727773634582170, 20135083849094720519250, 20136109671171677427420, 20137093045694299946930, 20139104817581504138120,
  20140084229141947832960, 20141092674814709496050, 20142088471631571970600, 20143107108718687145250, 20144143819466981949550,
  20145140796658263220230, 20146079399686979553730, 20147128084407949869180, 20148127608127459976630, 20149124789615938566760,
  20150128457121897841500, 20151150179354649149520, 20152111630708733267540, 20153130720253158596390, 20154045605340639330630,
  20155149125749492571260, 20157161165477535830630, 20158109866490386599890, 20159089153768703013830, 20160100979545390868280,
  20161101478401935976970, 20163136042421296069470, 20164124615698511448070, 20165078065427466909070, 20166101807721123356690,
  20167098659292176378380, 20168136316411037950620, 20169135775738825247870, 20170071329825191551390, 20171111398140111624870,
  20172165220128616912270, 20173073827926222181700, 20174056029776506836020, 20176140371062119032250, 20177130720253158596390,
  20178172151600422511700, 20179103337487386086370, 20180110005519438289800, 20181110795951511694320, 20182043125983065667300,
  20183091220033445285330, 20184096375262096484440, 20185088525176106835330, 20186172151600422511700, 20187121782074398375430,
  20188152692498931958590, 20189137494241394514450, 20190134084975524808530, 20191143247882843550070, 20192140796658263220230,
  20193123476255917955900, 20195084103847833834870, 20196080492941603768190, 20197053939707693518920, 20198172151600422511700,
  20200128584512155615800, 20201172151600422511700, 20202097703267683589790, 20203172151600422511700, 20204065886752871862130,
  20206137494241394514450, 20207148172647694528020, 20208101368184626935010, 20209158288656811312820, 20210116020319358631010,
  20211161165477535830630, 20212136887995176350100, 20213151357185005713360, 20214084383756585496800, 20215091886631033057590,
  20218132261759956868980, 20219074841823391250050, 20220145071098411489620, 20221087653895271523690, 20222158288656811312820,
  20223107951651141040300, 20224124615698511448070, 20225105739778725105800, 20226172151600422511700, 20227130255053002247450,
  20228140796658263220230, 20229135775738825247870, 20230132261759956868980, 20231172151600422511700, 20233151357185005713360,
  20234096708279341974830, 20235154234005730231160, 20237109235909026928510, 20238118035139903961320, 20239094236372231004390,
  20240101461366156729120, 20241094658375775908170, 20242135015879755468640, 20243131042861780778600, 20244137811728377660250,
  20245127608127459976630, 20246154234005730231160, 20247078779227370866380, 20248099113168169734680, 20249100465801449871360,
  20250057846275446523780, 20251154234005730231160, 20252172151600422511700, 20253144425713200113900, 20254102472508404492880,
  20255112287080369667350, 20256079405311803926270, 20257143819466981949550, 20258146502106847896340, 20259147302533924631700,
  20260083109373048824540, 20261154234005730231160, 20262103378639707537430, 20263141706376045277480, 20264165220128616912270,
  20265139193231762468430, 20266103875308077483200, 20267141706376045277480, 20268144425713200113900, 20269172151600422511700,
  20271098374011340232990, 20272112749887895307400, 20273158288656811312820, 20274131208154800290710, 20276098582417998951500,
  20278117017312960861890, 20279165220128616912270, 20280090786417901358800, 20281165220128616912270, 20282120056738894097510,
  20283161165477535830630, 20284082580359058454900, 20285105156597020894940, 20286149125749492571260, 20288156057221298170710,
  20289172151600422511700, 20290172151600422511700, 20291112438982024607100, 20293172151600422511700, 20294056004996260461670,
  20295151357185005713360, 20296172151600422511700, 20297143819466981949550, 20298172151600422511700, 20299172151600422511700,
  20301075197427165317760, 20302075663067081206240, 20303069193263941000325, 20304105193611251926800, 20305106317508200924070,
  20306172151600422511700, 20307080383764538038310, 20308070829843381454840, 20309085256956298944800, 20310165220128616912270,
  20311131898083515160230, 20312135775738825247870, 20313082331013994453230, 20314115911425360638330, 20315091824751662835500,
  20316069746289877255390, 20317145071098411489620, 20318127608127459976630, 20319117770807333279760, 20320048495782420547780,
  20321158288656811312820, 20323103778272275655800, 20324133031370368230260, 20325122951791164230460, 20327172151600422511700,
  20329109254444713421750, 20331172151600422511700, 20332113125267088498060, 20333172151600422511700, 20334161165477535830630,
  20335119628866142045420, 20336152692498931958590, 20338131547170317047520, 20339094269484844040950, 20341126933714652021320,
  20342151357185005713360, 20343107351154803245180, 20344093507401372566060, 20345104050175921360350, 20346108836581923574800,
  20347151357185005713360, 20348136598119807617580, 20349110413739383492350, 20350154234005730231160, 20351061383393215212200,
  20352115556778264915500, 20353151357185005713360, 20354138478642122646980, 20355126000395254099120, 20356103164455079211840,
  20358052228934286750290, 20360132261759956868980, 20361143819466981949550, 20362118124826603788920, 20363092947135371085640,
  20364165220128616912270, 20365101217554163824060, 20366138139626605890160, 20367146502106847896340, 20368172151600422511700,
  20369134539599265576090, 20370142707210630847300, 20371165220128616912270, 20372134774904239678030, 20375117470999011160400,
  20378158288656811312820, 20379082111061045227750, 20380161165477535830630, 20381087394140407491070, 20384103265875826858090,
  20385165220128616912270, 20387122806861091204790, 20388154234005730231160, 20389129810535376539120, 20390118215324958988100,
  20391090552133866726250, 20392102369462996204740, 20393145761027126359140, 20394142707210630847300, 20395172151600422511700,
  20396126933714652021320, 20398114562582683738900, 20399100874663429037740, 20400172151600422511700, 20401172151600422511700,
  20402161165477535830630, 20403158288656811312820, 20405101359756476415030, 20406122806861091204790, 20407161165477535830630,
  20408161165477535830630, 20409161165477535830630, 20411172151600422511700, 20414172151600422511700, 20415062939268591855555,
  20417122806861091204790, 20418156057221298170710, 20419105844766566088000, 20420085766345656674100, 20421115384062399828900,
  20423149125749492571260, 20424172151600422511700, 20425152692498931958590, 20426099631060903983570, 20428109827120257006480,
  20429156057221298170710, 20430131721087744166210, 20431112671250530705260, 20432147302533924631700, 20433116430060100734070,
  20435165220128616912270, 20436115080497775022950, 20437165220128616912270, 20438172151600422511700, 20439099504298643213040,
  20440094096854169803150, 20442126000395254099120, 20444135015879755468640, 20445086744456557935890, 20446106741300430612680,
  20447115147164688604850, 20448103265875826858090, 20449078925629879293210, 20450147302533924631700, 20451122806861091204790,
  20452156057221298170710, 20453158288656811312820, 20454129666648002018120, 20455142707210630847300, 20456123025051565151190,
  20457093879191404983600, 20458121399862270173440, 20459172151600422511700, 20460165220128616912270, 20461124193694966544310,
  20462085144793074010110, 20463109180507223172360, 20464146502106847896340, 20465094766719197565270, 20467127492519235965890,
  20469150179354649149520, 20470131547170317047520, 20472110518452382165310, 20474093534329644271900, 20475165220128616912270,
  20477158288656811312820, 20478118035139903961320, 20479172151600422511700, 20480165220128616912270, 20481165220128616912270,
  20483172151600422511700, 20485156057221298170710, 20486093879191404983600, 20487172151600422511700, 20488165220128616912270,
  20489103337487386086370, 20490172151600422511700, 20491054747962616838650, 20492126612831506506300, 20493088529845731015440,
  20495119218552175266800, 20496139193231762468430, 20497065886752871862130, 20498072166350743802910, 20499127725087857608560,
  20500124193694966544310, 20501158288656811312820, 20502141241175888928560, 20503139193231762468430, 20504103724767600127500,
  20505100207231911508380, 20506102039460549008040, 20507138478642122646980, 20508139193231762468430, 20509129810535376539120,
  20510124029756868787540, 20511088233033421462320, 20512150179354649149520, 20513116583319805516330, 20514147302533924631700,
  20515154234005730231160, 20516172151600422511700, 20517149125749492571260, 20518113745183848777720, 20519144425713200113900,
  20520134309704083329110, 20521124276682994691260, 20522117814380386969320, 20523172151600422511700, 20524143247882843550070,
  20525113486919853178740, 20526147302533924631700, 20528165220128616912270, 20529165220128616912270, 20530148172647694528020,
  20532161165477535830630, 20533165220128616912270, 20534172151600422511700, 20535172151600422511700, 20536132833344095268460,
  20537154234005730231160, 20538107214062023994860, 20539149125749492571260, 20540086282542384236350, 20541152692498931958590,
  20542096478143662379330, 20544149125749492571260, 20545135262805881372350, 20546133650124405411130, 20547120446760472130200,
  20548154234005730231160, 20549103875308077483200, 20550152692498931958590, 20551086878185197831200, 20552121337556772667100]

def emitS1 : List Nat := [
  20553149125749492571260, 20554161165477535830630, 20556135515983961215250, 20557149125749492571260, 20558121847221208587350,
  20559089637569768706160, 20560141241175888928560, 20561151357185005713360, 20562158288656811312820, 20563136598119807617580,
  20564154234005730231160, 20565113016570366129020, 20566135515983961215250, 20567142194277686971800, 20568165220128616912270,
  20569161165477535830630, 20570063887835738126615, 20571135262805881372350, 20572085267062414004040, 20574165220128616912270,
  20578138139626605890160, 20579118776219625498540, 20580148172647694528020, 20581098926496082537780, 20582139570635042296890,
  20583150179354649149520, 20585145761027126359140, 20586158288656811312820, 20587154234005730231160, 20588145071098411489620,
  20589165220128616912270, 20590161165477535830630, 20591149125749492571260, 20592172151600422511700, 20593165220128616912270,
  20594152692498931958590, 20596165220128616912270, 20597118215324958988100, 20598103255687338967060, 20599093603908587520390,
  20602172151600422511700, 20603136042421296069470, 20604149125749492571260, 20605103875308077483200, 20606143247882843550070,
  20607113950771118988100, 20608149125749492571260, 20609172151600422511700, 20611158288656811312820, 20612165220128616912270,
  20613103778272275655800, 20615165220128616912270, 20616145761027126359140, 20617139962842173829710, 20620172151600422511700,
  20621112014448862083700, 20624165220128616912270, 20625161165477535830630, 20626139193231762468430, 20629122179477684870560,
  20630141706376045277480, 20631101529684099646160, 20632134084975524808530, 20633100412017224943780, 20634097627575910275330,
  20635100050804140803840, 20636110289514183506780, 20637104937343414605270, 20638112593226727863410, 20639172151600422511700,
  20642165220128616912270, 20643119421604836874260, 20644165220128616912270, 20645142707210630847300, 20646124360365491396420,
  20647142707210630847300, 20648110455493097597160, 20649125707691431098000, 20650165220128616912270, 20652099673674604833260,
  20653161165477535830630, 20655172151600422511700, 20657172151600422511700, 20658118445220141235090, 20659079405311803926270,
  20660154234005730231160, 20661165220128616912270, 20663172151600422511700, 20665172151600422511700, 20666150179354649149520,
  20667095588228758209880, 20669161165477535830630, 20670096478143662379330, 20671172151600422511700, 20674136042421296069470,
  20675172151600422511700, 20676161165477535830630, 20677165220128616912270, 20678149125749492571260, 20679165220128616912270,
  20680149125749492571260, 20681122951791164230460, 20684161165477535830630, 20685172151600422511700, 20686172151600422511700,
  20687068456141328315930, 20689102369462996204740, 20690172151600422511700, 20691149125749492571260, 20692172151600422511700,
  20693101807721123356690, 20694132639163236697430, 20695139570635042296890, 20696165220128616912270, 20697172151600422511700,
  20698120277742364104170, 20699134084975524808530, 20700152692498931958590, 20701161165477535830630, 20703172151600422511700,
  20704172151600422511700, 20705154234005730231160, 20706161165477535830630, 20707172151600422511700, 20708172151600422511700,
  20709156057221298170710, 20710136598119807617580, 20711089443790290884980, 20712143247882843550070, 20716146502106847896340,
  20717088908237095442710, 20718120446760472130200, 20719172151600422511700, 20720137811728377660250, 20721172151600422511700,
  20723161165477535830630, 20724172151600422511700, 20725109866490386599890, 20729148172647694528020, 20730165220128616912270,
  20731114313348599214350, 20732151357185005713360, 20733161165477535830630, 20734172151600422511700, 20735172151600422511700,
  20736097703267683589790, 20737130255053002247450, 20738161165477535830630, 20740089153768703013830, 20741172151600422511700,
  20742130880256572060800, 20743152692498931958590, 20744145761027126359140, 20745137811728377660250, 20746145761027126359140,
  20747138478642122646980, 20748142194277686971800, 20749165220128616912270, 20750135015879755468640, 20751113207572079863200,
  20752135775738825247870, 20754107967951063149600, 20755136887995176350100, 20756129666648002018120, 20757142707210630847300,
  20759131376225983454520, 20761151357185005713360, 20762118872838734615910, 20764136598119807617580, 20767113950771118988100,
  20768156057221298170710, 20769161165477535830630, 20770165220128616912270, 20771161165477535830630, 20772158288656811312820,
  20774156057221298170710, 20775165220128616912270, 20776133439590313432820, 20778099113168169734680, 20779129524801652098560,
  20780172151600422511700, 20781138829555320759680, 20784154234005730231160, 20786110455493097597160, 20787135262805881372350,
  20788110645572738048920, 20789158288656811312820, 20791145071098411489620, 20792165220128616912270, 20793128584512155615800,
  20794125707691431098000, 20795142707210630847300, 20796123025051565151190, 20797172151600422511700, 20798172151600422511700,
  20799075722583365051240, 20800102807628323226140, 20801100110107502152330, 20802110413739383492350, 20803069457454784543710,
  20804090830412692953640, 20805098697952018343040, 20806100987658981577070, 20807097921887912017500, 20808070664543840825230,
  20809079191007948724520, 20810156057221298170710, 20811084716284086242060, 20812100488940681175340, 20813097274262808147270,
  20814172151600422511700, 20815136042421296069470, 20816151357185005713360, 20817100488940681175340, 20818075722583365051240,
  20819156057221298170710, 20820106886651826803810, 20821143247882843550070, 20822124029756868787540, 20823154234005730231160,
  20824102463096639092250, 20826071545405439947490, 20828102295182246119630, 20829172151600422511700, 20830172151600422511700,
  20832151357185005713360, 20834125517209481391050, 20837073012767135329230, 20838172151600422511700, 20839063913100584708350,
  20840072088902950720180, 20841065459488663367940, 20843083029562006306290, 20844085796506240168920, 20845081801258921750380,
  20846108765659640479900, 20847172151600422511700, 20848099781010161264340, 20849071720844755079900, 20850172151600422511700,
  20851083518272088115850, 20852088501860638124460, 20853074995092271971080, 20854060401999280424920, 20855084783495092972830,
  20856098286891934212780, 20857109846785946726900, 20858172151600422511700, 20859091101545047039260, 20860082371301094140160,
  20861095910294565898830, 20862158288656811312820, 20863172151600422511700, 20864111941366929016460, 20866158288656811312820,
  20867161165477535830630, 20869063913100584708350, 20871161165477535830630, 20872105597196918835240, 20873120561047430366430,
  20874172151600422511700, 20876100628911862186320, 20877062908956243437510, 20879140371062119032250, 20880161165477535830630,
  20881147302533924631700, 20882086528022988805600, 20883148172647694528020, 20885128084407949869180, 20886172151600422511700,
  20887127608127459976630, 20889074727806501098010, 20890172151600422511700, 20891070041877899670830, 20892096761329864271770,
  20893158288656811312820, 20894165220128616912270, 20895172151600422511700, 20896098972838436246760, 20897165220128616912270,
  20898110045599652265200, 20899158288656811312820, 20900104889266398924250, 20901111014778624189400, 20902129384939232351160,
  20903120390103096773430, 20904112063468568085760, 20905119068923448499660, 20906125517209481391050, 20907161165477535830630,
  20908099106440957910170, 20909120676655654377180, 20910120852613273280980, 20911107443605384685700, 20912095312960619947430,
  20913172151600422511700, 20914081789349905218440, 20915087837426278563380, 20916172151600422511700, 20917113097981941966000,
  20918111444223142486830, 20919086695737763337170, 20923103821283094649700, 20924134309704083329110, 20925141706376045277480,
  20927124615698511448070, 20928096385502752781330, 20931172151600422511700, 20932121717349253319260, 20934090066682905107900,
  20935124193694966544310, 20936150179354649149520, 20937098237448075758140, 20938172151600422511700, 20939128457121897841500,
  20940113016570366129020, 20941103821283094649700, 20942172151600422511700, 20943095597693974250200, 20945099737937589288550,
  20946161165477535830630, 20947172151600422511700, 20948165220128616912270, 20949172151600422511700, 20950143247882843550070,
  20951152692498931958590, 20952165220128616912270, 20955110434594448402560, 20956110434594448402560, 20957104455180653986700,
  20958161165477535830630, 20960081887425084359170, 20961086149132956996500, 20964103951436775770400, 20965172151600422511700,
  20966158288656811312820, 20968165220128616912270, 20971133233397441405450, 20972172151600422511700, 20973085639605709872000,
  20974152692498931958590, 20975113152626886686800, 20976123868463049488700, 20977113152626886686800, 20979111868815220204730,
  20981138829555320759680, 20982097921887912017500, 20983172151600422511700, 20984108783343111047300, 20985107244365077486650,
  20986058548381212070670, 20987088258002223448190, 20988128713546203974880, 20989109180507223172360, 20991102964648232307000,
  20992080805135146441880, 20993125330288151269520, 20994118776219625498540, 20995102807628323226140, 20996139193231762468430,
  20998067618184789815740, 20999092001631479028700, 21000121717349253319260, 21002108801057907531130, 21003172151600422511700,
  21004172151600422511700, 21005128713546203974880, 21006140371062119032250, 21009098262139446327340, 21010093859275047075800,
  21011154234005730231160, 21013125517209481391050, 21014128713546203974880, 21015085533471612249910, 21016085428452139676350,
  21017068366813189582690, 21018080167910420562090, 21019092932616312273750, 21020158288656811312820, 21021076632177558337770,
  21022136042421296069470, 21023172151600422511700, 21024118824412489858030, 21025161165477535830630, 21028100222258210353720,
  21029076589630337721360, 21031172151600422511700, 21032107935377744446530, 21033086651125139639870, 21034118824412489858030,
  21035076589630337721360, 21036165220128616912270, 21037151357185005713360, 21038100320483405078900, 21039172151600422511700,
  21040049827327514383200, 21042172151600422511700, 21043147302533924631700, 21045172151600422511700, 21046078435515226788670,
  21047096192701245326330, 21048109846785946726900, 21049117858144132967300, 21050083372202075261480, 21051093815598185900680,
  21052158288656811312820, 21053143819466981949550, 21055149125749492571260, 21056143819466981949550, 21057105095209473911680,
  21058098280698065944150, 21059109273014820893870, 21060165220128616912270, 21061095905410560917730, 21063156057221298170710,
  21064172151600422511700, 21065085392551596801130, 21066099631060903983570, 21067149125749492571260, 21068103461455915854650,
  21069061677841406217840, 21070137494241394514450, 21072117684226705848620, 21073077774450824329640, 21074150179354649149520,
  21076123476255917955900, 21077147302533924631700, 21078116699825977716100, 21082154234005730231160, 21083156057221298170710,
  21084120503740683276580, 21085102876021359728560, 21086165220128616912270, 21087154234005730231160, 21088145761027126359140,
  21089140371062119032250, 21090140796658263220230, 21092134309704083329110, 21093102876021359728560, 21094145761027126359140,
  21095097369903480913860, 21096156057221298170710, 21097096911386270450470, 21098098367763292544570, 21102165220128616912270,
  21103068074788087471010, 21104113207572079863200, 21105172151600422511700, 21106097052769810962580, 21107129810535376539120,
  21108165220128616912270, 21109092932616312273750, 21111149125749492571260, 21112142707210630847300, 21113161165477535830630,
  21114152692498931958590, 21115151357185005713360, 21116127378232277729650, 21117137811728377660250, 21119105964210587339520,
  21121141706376045277480, 21122165220128616912270, 21123172151600422511700, 21124140796658263220230, 21125122523154119912640,
  21126172151600422511700, 21127172151600422511700, 21128099072872614874650, 21129172151600422511700, 21130143819466981949550,
  21131151357185005713360, 21132149125749492571260, 21133077774450824329640, 21134150179354649149520, 21137098280698065944150,
  21139132261759956868980, 21142152692498931958590, 21144150179354649149520, 21145144425713200113900, 21146136316411037950620,
  21147079298977437577300, 21149090424309373857000, 21150079739025676402670, 21151085773434085111950, 21152078618455013238820,
  21153100132437247195440, 21154142707210630847300, 21155113600881200487440, 21158165220128616912270, 21159108418402526741580,
  21160077809563780364300, 21161095526922270509350, 21162110839335527680300, 21163100574245580012660, 21164127492519235965890,
  21165140371062119032250, 21167122523154119912640, 21168172151600422511700, 21169122735176196418670, 21170091520971309243800]

def emitS2 : List Nat := [
  21171102066548601688910, 21172172151600422511700, 21173165220128616912270, 21176165220128616912270, 21177119421604836874260,
  21179112063468568085760, 21180151357185005713360, 21181172151600422511700, 21182119218552175266800, 21183086359314599154810,
  21185091520971309243800, 21186172151600422511700, 21187111749053309737580, 21188172151600422511700, 21189158288656811312820,
  21191096798633398070830, 21193122879063570939660, 21195109403980210092340, 21196158288656811312820, 21197172151600422511700,
  21200132448681286990500, 21202097096677675137480, 21203172151600422511700, 21204142194277686971800, 21205077809563780364300,
  21206134539599265576090, 21207136042421296069470, 21208110839335527680300, 21209100132437247195440, 21213165220128616912270,
  21214102066548601688910, 21215112593226727863410, 21216161165477535830630, 21218086359314599154810, 21219137811728377660250,
  21220106989669662082070, 21222172151600422511700, 21224133233397441405450, 21225115384062399828900, 21226105520273462603690,
  21227098182114396301580, 21228100473508579347270, 21229106442770799115870, 21230105343053634609570, 21231105857967888137220,
  21232132639163236697430, 21233172151600422511700, 21235109403980210092340, 21237122735176196418670, 21238111352268471555800,
  21239172151600422511700, 21240090424309373857000, 21242113803493051885670, 21243111677878632048930, 21244172151600422511700,
  21246097767765122068640, 21247103044092542892360, 21248111677878632048930, 21250161165477535830630, 21252172151600422511700,
  21253086417755711851920, 21254124789615938566760, 21256114721568544416890, 21259147302533924631700, 21261134084975524808530,
  21263135015879755468640, 21264135515983961215250, 21269124877722235388320, 21270083519687015603170, 21271074248411878206815,
  21273119894133685379700, 21274132833344095268460, 21276152692498931958590, 21277119268930115566360, 21280106248589940544860,
  21281114818187653534260, 21283110085841155262440, 21286120676655654377180, 21290107742135016182500, 21292152692498931958590,
  21293136316411037950620, 21294127378232277729650, 21295100963337931890940, 21297127378232277729650, 21299172151600422511700,
  21300165220128616912270, 21305102944885380024880, 21306070904507839635330, 21307102681840501157530, 21308147302533924631700,
  21309151357185005713360, 21310105765922530846520, 21311124789615938566760, 21312172151600422511700, 21313082372562685007920,
  21314132833344095268460, 21315089915328664456900, 21317137186524807846900, 21319087360841729480630, 21320104161041801923750,
  21321136042421296069470, 21322082031486652147600, 21324165220128616912270, 21325158288656811312820, 21326088340156952982110,
  21327108350375053514070, 21328161165477535830630, 21329107474613161468180, 21330088194567484226440, 21331111990028825528190,
  21332108350375053514070, 21333085455891704140520, 21334082821554506726260, 21335071170930355255870, 21337154234005730231160,
  21338105635881686614450, 21340104582276530036180, 21342100826624905911280, 21343125330288151269520, 21344070829843381454840,
  21345092117969836212230, 21346105193611251926800, 21347123098852638127420, 21348105584335180727800, 21350102166504000005710,
  21351102586145990996030, 21352151357185005713360, 21353165220128616912270, 21355098066294753565460, 21356139962842173829710,
  21357172151600422511700, 21358122735176196418670, 21359119421604836874260, 21360090667143760079350, 21361108033417745412750,
  21362172151600422511700, 21363067613281202887950, 21364061908421924805010, 21365098717338131038040, 21367086455641720418870,
  21368103534487017704410, 21369118633019087751050, 21370158288656811312820, 21371061908421924805010, 21375101914010875127290,
  21376148172647694528020, 21378085620383336106900, 21380106886651826803810, 21381088852607492554480, 21382096202756550346520,
  21385116093579759551740, 21387087843965788333220, 21388109034252330982580, 21389121717349253319260, 21392165220128616912270,
  21393158288656811312820, 21395138478642122646980, 21396129666648002018120, 21397122664001518730040, 21398132078268570187000,
  21399161165477535830630, 21400111560368466693750, 21401121717349253319260, 21402087226694634753060, 21403119473018831878440,
  21404122247274554724350, 21405129110949490470010, 21406158288656811312820, 21407074784947830620740, 21408131376225983454520,
  21409143819466981949550, 21410110795951511694320, 21411128084407949869180, 21412132833344095268460, 21413115418367750796790,
  21414116020319358631010, 21415143247882843550070, 21416112211986149446030, 21417127265236725190330, 21418172151600422511700,
  21419146502106847896340, 21420158288656811312820, 21421109034252330982580, 21422100850615321255950, 21424142194277686971800,
  21425158288656811312820, 21426161165477535830630, 21427172151600422511700, 21428128084407949869180, 21430133650124405411130,
  21431120911960628479140, 21433152692498931958590, 21434158288656811312820, 21435054919574444736570, 21436158288656811312820,
  21439070757311801709735, 21441138829555320759680, 21442092604367077532630, 21443092604367077532630, 21444172151600422511700,
  21445165220128616912270, 21446123709729557925810, 21447151357185005713360, 21448052917885611829120, 21449099730776829942100,
  21450063956217866454970, 21451100676007710617180, 21452081797684727395300, 21453077047150778246510, 21454127963194344545740,
  21455123476255917955900, 21457074836477544548540, 21459118633019087751050, 21460093631098349852820, 21461129956523370750650,
  21462079126963813991830, 21463070571853221209040, 21464078124652777806590, 21465099809828625013230, 21466129810535376539120,
  21467107774083925147700, 21468146502106847896340, 21470118079882707910540, 21471126718652599811680, 21472103973294707970220,
  21473124193694966544310, 21474104161041801923750, 21475072735100286206950, 21476081715828881530910, 21477084678079646268200,
  21478071879073823811130, 21479123709729557925810, 21480118306649794620820, 21481101693834653716600, 21482056879076988849330,
  21483065362312914290190, 21484098620781217357400, 21485115180665557457670, 21486109441716103928730, 21487057441822050887090,
  21488074763113116566910, 21489111990028825528190, 21490082743999073627880, 21491080612842072561150, 21492132639163236697430,
  21493122593329846499100, 21494087776596197441830, 21495065092001630411070, 21496086451846653959650, 21497088857432583118530,
  21498118680525115337030, 21499133233397441405450, 21500118398816345670070, 21501125238121600220270, 21502120002242846421860,
  21503135515983961215250, 21504143247882843550070, 21505114499689394663270, 21506142194277686971800, 21507067019340923764100,
  21508065050403860538550, 21509161165477535830630, 21510121525650092242050, 21511132639163236697430, 21512080610726118257880,
  21513093557468875575880, 21514099358412068365510, 21515131208154800290710, 21516066809859904977040, 21517070395483161792120,
  21518054807483986503860, 21519105545848924114850, 21520092324023402400590, 21521059769477769544190, 21522143247882843550070,
  21523088828516900320530, 21524152692498931958590, 21525103746135129624850, 21526141706376045277480, 21527072512831897022600,
  21528134539599265576090, 21529132639163236697430, 21531091590503827061110, 21532161165477535830630, 21533139962842173829710,
  21534102012445674406450, 21535107951651141040300, 21536116279113838509220, 21537127608127459976630, 21539136887995176350100,
  21541156057221298170710, 21542103074047632690360, 21543070677072227085360, 21544085478241924052140, 21545135515983961215250,
  21547083686631036923340, 21548064836448269612800, 21549116204486626493320, 21550121214098414444100, 21551100613262406723300,
  21552172151600422511700, 21553111630708733267540, 21554142194277686971800, 21555172151600422511700, 21556082647568824182120,
  21557102633878778522600, 21558141241175888928560, 21560093689612267537470, 21561088917943478150910, 21563093903143512243150,
  21564102332253650947840, 21565147302533924631700, 21566091287497669273880, 21567158288656811312820, 21568080477271712862650,
  21570103746135129624850, 21571120734964857485120, 21572172151600422511700, 21574088296713418323630, 21576081128504144886940,
  21578089891216127656880, 21579132078268570187000, 21582125238121600220270, 21584111490519521474240, 21585165220128616912270,
  21586131721087744166210, 21587137494241394514450, 21588137186524807846900, 21589115487333541387400, 21590138478642122646980,
  21591116738964970927450, 21592085206578358645240, 21593142707210630847300, 21595106945389146924760, 21596103368335739598470,
  21599161165477535830630, 21600165220128616912270, 21602069531941728312160, 21603158288656811312820, 21604132261759956868980,
  21606121782074398375430, 21608081880216144962500, 21610150179354649149520, 21611131376225983454520, 21612116778257752326360,
  21613111352268471555800, 21614114818187653534260, 21615117814380386969320, 21616108590523815552800, 21617128207108875787320,
  21618131721087744166210, 21619088376887940100720, 21620120277742364104170, 21621094252914831964660, 21622125707691431098000,
  21623118352626887107120, 21624108943917480005900, 21627154234005730231160, 21628091116657638702030, 21629078561410779036260,
  21630161165477535830630, 21632104734593475991180, 21633172151600422511700, 21634123025051565151190, 21635118921500631127640,
  21636120503740683276580, 21637165220128616912270, 21638150179354649149520, 21639165220128616912270, 21640172151600422511700,
  21643099645245303524920, 21644039869692581995793, 21645161165477535830630, 21646120002242846421860, 21647107935377744446530,
  21648134084975524808530, 21649172151600422511700, 21650111081371545089170, 21652122112137363057120, 21653116936991243889250,
  21654136042421296069470, 21655172151600422511700, 21657150179354649149520, 21658115418367750796790, 21659131898083515160230,
  21661122593329846499100, 21666172151600422511700, 21667125146796764587550, 21668143247882843550070, 21669165220128616912270,
  21670105022038415741030, 21671107108718687145250, 21672121337556772667100, 21673131898083515160230, 21674111990028825528190,
  21675152692498931958590, 21676090382061740253920, 21677122735176196418670, 21678172151600422511700, 21679111630708733267540,
  21680172151600422511700, 21681087214402070205760, 21683105230762997445440, 21684133031370368230260, 21685156057221298170710,
  21686165220128616912270, 21687161165477535830630, 21688111283853153388640, 21689152692498931958590, 21691139193231762468430,
  21692165220128616912270, 21693102184785540746330, 21694161165477535830630, 21695132833344095268460, 21696106712481966863800,
  21697094841068982440450, 21698119421604836874260, 21699165220128616912270, 21700096756012129501410, 21702122384262998305960,
  21703102633878778522600, 21704093983400764866190, 21705106945389146924760, 21706093748470589310070, 21707172151600422511700,
  21708136042421296069470, 21709086310561455523070, 21710100589834047705560, 21711139570635042296890, 21712124111389975179150,
  21713107552555878736360, 21714115214279034484730, 21715148172647694528020, 21716142194277686971800, 21717128207108875787320,
  21718165220128616912270, 21719106626521552165820, 21721141241175888928560, 21722165220128616912270, 21724146502106847896340,
  21725125146796764587550, 21726143819466981949550, 21727100139891589694920, 21728138829555320759680, 21729085206578358645240,
  21730172151600422511700, 21732172151600422511700, 21733087793938495306630, 21734090632501693102670, 21735119168426757031350,
  21736098139287778381570, 21737151357185005713360, 21738078110637358553710, 21740172151600422511700, 21741082954393867141130,
  21742135515983961215250, 21743172151600422511700, 21745134309704083329110, 21746109690532767696090, 21747143247882843550070,
  21749122112137363057120, 21754120676655654377180, 21755152692498931958590, 21756091718178718095640, 21757128844267019648410,
  21759142194277686971800, 21761145071098411489620, 21762172151600422511700, 21763151357185005713360, 21764156057221298170710,
  21766115947591765340210, 21767104239385795249860, 21769094236372231004390, 21770172151600422511700, 21774152692498931958590,
  21775133031370368230260, 21776087450584583687850, 21777127265236725190330, 21779172151600422511700, 21780110497421880197510,
  21782165220128616912270, 21783172151600422511700, 21785161165477535830630, 21787172151600422511700, 21789172151600422511700,
  21790158288656811312820, 21792134309704083329110, 21793172151600422511700, 21794161165477535830630, 21795143247882843550070,
  21796098218969474873340, 21799145071098411489620, 21800143819466981949550, 21802158288656811312820, 21803161165477535830630,
  21804106317508200924070, 21805172151600422511700, 21806105268053283044100, 21807103104092722893340, 21808120446760472130200]

def emitS3 : List Nat := [
  21809088337865739774700, 21810151357185005713360, 21811134774904239678030, 21812129524801652098560, 21813137186524807846900,
  21814161165477535830630, 21815116241730617403150, 21816156057221298170710, 21817143819466981949550, 21818136316411037950620,
  21819139962842173829710, 21820152692498931958590, 21821161165477535830630, 21822121092145683505910, 21823133650124405411130,
  21824117345211189091800, 21825142194277686971800, 21826165220128616912270, 21827107168778927747380, 21828110497421880197510,
  21829150179354649149520, 21830089585526976250150, 21831172151600422511700, 21832172151600422511700, 21833136042421296069470,
  21834072250361830554970, 21835133233397441405450, 21837172151600422511700, 21838165220128616912270, 21839161165477535830630,
  21840117345211189091800, 21841154234005730231160, 21842133031370368230260, 21843135015879755468640, 21845158288656811312820,
  21846132639163236697430, 21847105950868357208150, 21848134084975524808530, 21849161165477535830630, 21851135775738825247870,
  21852128331334075772900, 21853156057221298170710, 21854107552555878736360, 21855172151600422511700, 21856172151600422511700,
  21857133650124405411130, 21858150179354649149520, 21859146502106847896340, 21860120793616052009100, 21861090124036605955350,
  21862080157795105113310, 21863130255053002247450, 21865172151600422511700, 21866104949398871158760, 21867145071098411489620,
  21868128584512155615800, 21869140796658263220230, 21870133439590313432820, 21871136598119807617580, 21872115983889445846000,
  21873165220128616912270, 21874152692498931958590, 21877122664001518730040, 21878139193231762468430, 21879110904766513569670,
  21880113687212671934470, 21881135262805881372350, 21882146502106847896340, 21883131042861780778600, 21884116430060100734070,
  21886120852613273280980, 21887131208154800290710, 21888099207827429623500, 21889133233397441405450, 21890095153176348541850,
  21891133650124405411130, 21892085435304975305150, 21893126099898562630800, 21894141706376045277480, 21895105622970128978240,
  21896158288656811312820, 21897108198984441357220, 21898087572923169197490, 21899132833344095268460, 21900131721087744166210,
  21902126404490637477900, 21903114468390464573990, 21905135515983961215250, 21907161165477535830630, 21908124360365491396420,
  21909158288656811312820, 21910172151600422511700, 21912104901264000843280, 21913116056882470662120, 21914158288656811312820,
  21915165220128616912270, 21916083086311246566530, 21917079995336658457510, 21918172151600422511700, 21919129110949490470010,
  21924161165477535830630, 21926143819466981949550, 21927117513282372255610, 21928144425713200113900, 21930172151600422511700,
  21932108469728559006800, 21934085455891704140520, 21937151357185005713360, 21938100139891589694920, 21939130407727723555350,
  21941109107112398291900, 21942172151600422511700, 21943100652432061190640, 21945134774904239678030, 21947115147164688604850,
  21949115452791192706530, 21950131721087744166210, 21951172151600422511700, 21953172151600422511700, 21954165220128616912270,
  21956125238121600220270, 21957110839335527680300, 21958106945389146924760, 21959128584512155615800, 21961136042421296069470,
  21962172151600422511700, 21964130255053002247450, 21965128584512155615800, 21966072512831897022600, 21967134309704083329110,
  21968108435481950193150, 21969128084407949869180, 21970114437189191211570, 21971128331334075772900, 21972108854391367284760,
  21973104489683275908210, 21974118680525115337030, 21975102012445674406450, 21976106428774995571640, 21977113207572079863200,
  21978103368335739598470, 21979115521995621152250, 21980110065700161545430, 21981126718652599811680, 21982154234005730231160,
  21983114070175522707280, 21985118124826603788920, 21986156057221298170710, 21987104582276530036180, 21988101036479257550140,
  21989133865186457620770, 21990117902100247697690, 21992113070771040822410, 21993161165477535830630, 21994131208154800290710,
  21995136042421296069470, 21996118169973407334190, 21997104261882992590010, 21999095130557022001220, 22002129956523370750650,
  22003112137451642900210, 22005121589142369028630, 22006142194277686971800, 22007124193694966544310, 22011128713546203974880,
  22013116130412213714710, 22014138829555320759680, 22015172151600422511700, 22016121912795214048960, 22017126404490637477900,
  22022088857432583118530, 22024124444754177855060, 22025093430860623842980, 22028130255053002247450, 22029172151600422511700,
  22030112088068826494390, 22031137811728377660250, 22033172151600422511700, 22036115487333541387400, 22038130255053002247450,
  22039100488940681175340, 22040117303631087605160, 22042150179354649149520, 22043090728057654013380, 22044172151600422511700,
  22046131721087744166210, 22047123399627190500200, 22048172151600422511700, 22049142707210630847300, 22050172151600422511700,
  22051124702279138879210, 22052116130412213714710, 22054161165477535830630, 22055134309704083329110, 22057106626521552165820,
  22059126825605490979160, 22060129384939232351160, 22061120561047430366430, 22062134309704083329110, 22063156057221298170710,
  22064125238121600220270, 22065115697131446079350, 22066126933714652021320, 22068084121865856727500, 22069148172647694528020,
  22070112038928678470100, 22071165220128616912270, 22072131721087744166210, 22073145761027126359140, 22075106058107990837910,
  22076165220128616912270, 22078147302533924631700, 22079110392927721454100, 22080132078268570187000, 22081147302533924631700,
  22087161165477535830630, 22089161165477535830630, 22092130407727723555350, 22093150179354649149520, 22094118728257902863610,
  22095172151600422511700, 22097165220128616912270, 22099117303631087605160, 22100126099898562630800, 22101158288656811312820,
  22103111170857600849310, 22104128713546203974880, 22105118585737675791600, 22106172151600422511700, 22108125901872289669000,
  22109122593329846499100, 22112115214279034484730, 22114105131996762486300, 22115141706376045277480, 22116138139626605890160,
  22117125146796764587550, 22118128207108875787320, 22119146502106847896340, 22120088678066301268320, 22121145761027126359140,
  22122122879063570939660, 22123125901872289669000, 22124118872838734615910, 22125147302533924631700, 22126172151600422511700,
  22127131042861780778600, 22128139962842173829710, 22129145761027126359140, 22130165220128616912270, 22131143247882843550070,
  22132150179354649149520, 22133165220128616912270, 22134117770807333279760, 22135105765922530846520, 22136117684226705848620,
  22137125056298409388380, 22138128457121897841500, 22139144425713200113900, 22140138478642122646980, 22142131376225983454520,
  22143161165477535830630, 22144131898083515160230, 22145172151600422511700, 22146158288656811312820, 22148172151600422511700,
  22149136316411037950620, 22150172151600422511700, 22151145071098411489620, 22152138478642122646980, 22153172151600422511700,
  22154154234005730231160, 22155172151600422511700, 22156146502106847896340, 22158117303631087605160, 22159144425713200113900,
  22161113629575624766980, 22162140371062119032250, 22163121525650092242050, 22165125901872289669000, 22166165220128616912270,
  22167165220128616912270, 22168172151600422511700, 22172110187159144566510, 22175135262805881372350, 22177172151600422511700,
  22178172151600422511700, 22179127043005357343200, 22180172151600422511700, 22181172151600422511700, 22182123248109140294190,
  22183137186524807846900, 22184154234005730231160, 22185145071098411489620, 22187117139018317064440, 22188118079882707910540,
  22189107710287855507310, 22190124966611709560770, 22191136042421296069470, 22193165220128616912270, 22194111630708733267540,
  22195152692498931958590, 22196093553608616890620, 22198116130412213714710, 22199101798914429700740, 22204105558661225675350,
  22208140796658263220230, 22209136042421296069470, 22210172151600422511700, 22216137494241394514450, 22217115983889445846000,
  22218099802616219363400, 22220172151600422511700, 22221172151600422511700, 22223165220128616912270, 22225115697131446079350,
  22226172151600422511700, 22227133439590313432820, 22228147302533924631700, 22231165220128616912270, 22234115147164688604850,
  22235073582401255313785, 22237165220128616912270, 22238071473451962933680, 22239128713546203974880, 22240069337156210234810,
  22241145071098411489620, 22242084048495758932140, 22243146502106847896340, 22244123709729557925810, 22245132261759956868980,
  22246117220985989106230, 22247107320526907939730, 22248109690532767696090, 22249119218552175266800, 22250140371062119032250,
  22251165220128616912270, 22252124877722235388320, 22253096582094702382730, 22254158288656811312820, 22255172151600422511700,
  22256099532329495484200, 22257140371062119032250, 22259172151600422511700, 22260089186135219505560, 22261165220128616912270,
  22263122315534205428360, 22265165220128616912270, 22266097627575910275330, 22268172151600422511700, 22269069063407238298910,
  22270078132080665739410, 22271124789615938566760, 22275115556778264915500, 22276172151600422511700, 22278089616720139052660,
  22279165220128616912270, 22280093347336979587720, 22281126933714652021320, 22282165220128616912270, 22283149125749492571260,
  22284161165477535830630, 22285089186135219505560, 22287172151600422511700, 22290149125749492571260, 22291165220128616912270,
  22294078132080665739410, 22295147302533924631700, 22296165220128616912270, 22298158288656811312820, 22300118215324958988100,
  22301172151600422511700, 22302156057221298170710, 22303081603045731153840, 22306148172647694528020, 22307089213604334043540,
  22309165220128616912270, 22311161165477535830630, 22312037172204801308810, 22313119218552175266800, 22314121653040350016340,
  22315158288656811312820, 22316158288656811312820, 22317105280514343846580, 22318139193231762468430, 22319139570635042296890,
  22320052288554016078015, 22323138829555320759680, 22324172151600422511700, 22325172151600422511700, 22327138829555320759680,
  22328172151600422511700, 22329143247882843550070, 22330078707259357942900, 22331135775738825247870, 22332142707210630847300,
  22333172151600422511700, 22334144425713200113900, 22336109088847553031560, 22338132833344095268460, 22339117727423317293770,
  22342151357185005713360, 22343072736062889085880, 22344151357185005713360, 22346102768755582342110, 22347161165477535830630,
  22348146502106847896340, 22349122453467426751700, 22350109385165529095280, 22351087761446318989580, 22352075699899535369200,
  22353099427616496811260, 22354165220128616912270, 22356165220128616912270, 22357165220128616912270, 22359083980104175077650,
  22360165220128616912270, 22361154234005730231160, 22362101667736335292890, 22363086653060685953860, 22364172151600422511700,
  22365103918739198954850, 22366113458631291173970, 22367101598471989114200, 22368107049017017280230, 22369098336581477444650,
  22370135515983961215250, 22372096954676381346320, 22373161165477535830630, 22374104061207362081930, 22375152692498931958590,
  22376124276682994691260, 22377149125749492571260, 22378104722794064592680, 22379151357185005713360, 22381140796658263220230,
  22382165220128616912270, 22383122806861091204790, 22386172151600422511700, 22387129524801652098560, 22389156057221298170710,
  22390134309704083329110, 22391142194277686971800, 22393158288656811312820, 22395154234005730231160, 22396147302533924631700,
  22400165220128616912270, 22401130720253158596390, 22402094419863617686360, 22403145761027126359140, 22404122179477684870560,
  22405131042861780778600, 22406146502106847896340, 22407158288656811312820, 22408172151600422511700, 22409158288656811312820,
  22410143247882843550070, 22411076863659391564540, 22412172151600422511700, 22413156057221298170710, 22414113716156252198120,
  22415131208154800290710, 22416141241175888928560, 22417165220128616912270, 22418111444223142486830, 22419122112137363057120,
  22420161165477535830630, 22421134539599265576090, 22422148172647694528020, 22423147302533924631700, 22424161165477535830630,
  22425129810535376539120, 22426115487333541387400, 22427116699825977716100, 22428097987815630582440, 22429131547170317047520,
  22430165220128616912270, 22431139962842173829710, 22432154234005730231160, 22433137494241394514450, 22434119370453830206550,
  22435116020319358631010, 22436148172647694528020, 22438116468155384900740, 22439152692498931958590, 22440131721087744166210,
  22441149125749492571260, 22442142194277686971800, 22443102994365936198570, 22444106207465825013930, 22445125707691431098000,
  22446100628911862186320, 22447131376225983454520, 22448132261759956868980, 22449098710871916781060, 22452158288656811312820,
  22453132639163236697430, 22454141241175888928560, 22455158288656811312820, 22456087195991509620490, 22458158288656811312820]

def emitS4 : List Nat := [
  22459172151600422511700, 22460165220128616912270, 22461143247882843550070, 22463172151600422511700, 22465144425713200113900,
  22466119268930115566360, 22467097898021552240200, 22468130880256572060800, 22469139570635042296890, 22470121525650092242050,
  22471134539599265576090, 22473151357185005713360, 22474172151600422511700, 22475094344391561332530, 22476106044639975334130,
  22477130720253158596390, 22478073140252552986410, 22479161165477535830630, 22480161165477535830630, 22481147302533924631700,
  22482142707210630847300, 22483143819466981949550, 22484129810535376539120, 22485150179354649149520, 22486156057221298170710,
  22487127265236725190330, 22488138478642122646980, 22489133233397441405450, 22490172151600422511700, 22491129384939232351160,
  22492141706376045277480, 22493147302533924631700, 22494140371062119032250, 22495101905110117975360, 22496119948042171728470,
  22497139570635042296890, 22498135515983961215250, 22500165220128616912270, 22501145071098411489620, 22502172151600422511700,
  22503134774904239678030, 22504172151600422511700, 22506165220128616912270, 22507172151600422511700, 22508165220128616912270,
  22509139570635042296890, 22510145071098411489620, 22513165220128616912270, 22515172151600422511700, 22516165220128616912270,
  22517151357185005713360, 22519156057221298170710, 22520161165477535830630, 22521116544784112356440, 22522090143227838713230,
  22524165220128616912270, 22525122315534205428360, 22528152692498931958590, 22529172151600422511700, 22530089595913889674250,
  22531133650124405411130, 22533165220128616912270, 22534094031866126291490, 22535133439590313432820, 22536172151600422511700,
  22537141241175888928560, 22538149125749492571260, 22539126200401921165820, 22540165220128616912270, 22541156057221298170710,
  22542161165477535830630, 22544165220128616912270, 22545113921141467681530, 22548172151600422511700, 22549106741300430612680,
  22550172151600422511700, 22551172151600422511700, 22553137186524807846900, 22554149125749492571260, 22555134084975524808530,
  22556113290560108010170, 22557100574245580012660, 22558135775738825247870, 22559111917124492901380, 22560143819466981949550,
  22561099079577274864330, 22562115661858040899650, 22563116778257752326360, 22564097720816679026560, 22565118921500631127640,
  22566172151600422511700, 22568165220128616912270, 22570105726732408839150, 22572117814380386969320, 22574172151600422511700,
  22575114883122946639740, 22576111421155081507660, 22577076231692269328640, 22578172151600422511700, 22580165220128616912270,
  22581101309336201532560, 22584172151600422511700, 22586156057221298170710, 22588165220128616912270, 22596133031370368230260,
  22599172151600422511700, 22602083980104175077650, 22603147302533924631700, 22604106331349033583450, 22605156057221298170710,
  22607134309704083329110, 22609112312237615639820, 22610138478642122646980, 22611165220128616912270, 22612092131352240350620,
  22614141241175888928560, 22615099365310999304900, 22616104409361558935570, 22617156057221298170710, 22618110045599652265200,
  22621172151600422511700, 22622092406271981209440, 22624130562769588915000, 22626113458631291173970, 22627172151600422511700,
  22628133233397441405450, 22629172151600422511700, 22630172151600422511700, 22632150179354649149520, 22633136042421296069470,
  22635099977166105546380, 22636119894133685379700, 22637172151600422511700, 22639152692498931958590, 22644129384939232351160,
  22645103184657106284590, 22646165220128616912270, 22647165220128616912270, 22648158288656811312820, 22649172151600422511700,
  22650172151600422511700, 22651156057221298170710, 22652172151600422511700, 22653110146508682084800, 22654133650124405411130,
  22656145761027126359140, 22657154234005730231160, 22659089423340386007710, 22661143247882843550070, 22662172151600422511700,
  22665145071098411489620, 22666102994365936198570, 22669117641215886854710, 22670158288656811312820, 22671165220128616912270,
  22673156057221298170710, 22674120277742364104170, 22675084302324161928500, 22677152692498931958590, 22678134539599265576090,
  22679161165477535830630, 22680172151600422511700, 22681086097728400990170, 22682165220128616912270, 22683147302533924631700,
  22684107049017017280230, 22685143247882843550070, 22686091909525564725940, 22687112567353492213900, 22688111398140111624870,
  22689138829555320759680, 22690172151600422511700, 22691156057221298170710, 22692134539599265576090, 22693158288656811312820,
  22694112567353492213900, 22695143819466981949550, 22696100898769507404600, 22697098468203559397900, 22699172151600422511700,
  22700158288656811312820, 22701142707210630847300, 22702106741300430612680, 22703172151600422511700, 22704136887995176350100,
  22707101598471989114200, 22709158288656811312820, 22710161165477535830630, 22711147302533924631700, 22712148172647694528020,
  22713156057221298170710, 22714147302533924631700, 22715161165477535830630, 22716144425713200113900, 22717136042421296069470,
  22718116468155384900740, 22719129810535376539120, 22720165220128616912270, 22721094744956403339300, 22722125330288151269520,
  22723133439590313432820, 22724143247882843550070, 22725126301925635806000, 22726156057221298170710, 22727117428893685796960,
  22728144425713200113900, 22729172151600422511700, 22730122384262998305960, 22731150179354649149520, 22732152692498931958590,
  22733148172647694528020, 22734150179354649149520, 22735172151600422511700, 22737120277742364104170, 22738122593329846499100,
  22739087843965788333220, 22741111965668277549370, 22742165220128616912270, 22743172151600422511700, 22744111444223142486830,
  22745143247882843550070, 22746146502106847896340, 22748161165477535830630, 22750087761446318989580, 22751131042861780778600,
  22754172151600422511700, 22756116020319358631010, 22761103918739198954850, 22763094199251132489990, 22764120446760472130200,
  22766098518804552881340, 22767098518804552881340, 22768075529163680610400, 22771095759988705919990, 22774099766632013568070,
  22775156057221298170710, 22776158288656811312820, 22777137811728377660250, 22778172151600422511700, 22779172151600422511700,
  22780158288656811312820, 22781105009895123417000, 22784172151600422511700, 22785165220128616912270, 22786132448681286990500,
  22788070898498103682500, 22789172151600422511700, 22790142707210630847300, 22791094814764714752700, 22792123709729557925810,
  22793103735445657735800, 22794101504010144593700, 22795104961468878659120, 22796109198940408115260, 22797084673314337624280,
  22798108165651077159650, 22799086478442414317240, 22800116738964970927450, 22804106741300430612680, 22805112088068826494390,
  22806067496595771799000, 22807172151600422511700, 22809129247006011027800, 22810057132955246403680, 22811119268930115566360,
  22812089161228606381040, 22815088993489103676320, 22816172151600422511700, 22818089939499483261010, 22820133439590313432820,
  22821100465801449871360, 22823053369041999128970, 22824144425713200113900, 22825067244693283513410, 22826070925771212474040,
  22827089027794454644200, 22828165220128616912270, 22829121031722538946290, 22830115697131446079350, 22831116778257752326360,
  22833090096684291309350, 22836069688987209467990, 22838165220128616912270, 22839099448471561721470, 22840104466668306025420,
  22841092513520890197200, 22842091721391569528900, 22844154234005730231160, 22846165220128616912270, 22848172151600422511700,
  22849126200401921165820, 22850131376225983454520, 22852127378232277729650, 22855087507349163735900, 22856105022038415741030,
  22857088314982434594570, 22859112829148548031610, 22860165220128616912270, 22862121653040350016340, 22863089126463237370150,
  22864131376225983454520, 22865109385165529095280, 22866172151600422511700, 22867151357185005713360, 22868084925800211099830,
  22869103316974558380790, 22870091689309411757950, 22871088487897405695190, 22872137811728377660250, 22874119118551341920970,
  22875172151600422511700, 22880121847221208587350, 22881154234005730231160, 22882119628866142045420, 22884135515983961215250,
  22885095837283776742660, 22886172151600422511700, 22887095837283776742660, 22889126200401921165820, 22890091721391569528900,
  22893127265236725190330, 22894129384939232351160, 22895156057221298170710, 22898111444223142486830, 22899069769517861326370,
  22900099469370210916070, 22902100802691906852870, 22904103864479706094880, 22905054093038033934940, 22906172151600422511700,
  22907172151600422511700, 22908105181257945846870, 22909057797313619019870, 22913172151600422511700, 22914062808930313561900,
  22915094023772236735910, 22916109632561590852830, 22917165220128616912270, 22918111630708733267540, 22919101250832064750800,
  22920086951707635329320, 22922130104674228602060, 22924172151600422511700, 22925120166630109853450, 22926165220128616912270,
  22927146502106847896340, 22930119473018831878440, 22931111329411318747250, 22934093891160287322070, 22935115014272367418030,
  22936148172647694528020, 22937095424021456086620, 22941111630708733267540, 22942118921500631127640, 22947154234005730231160,
  22948125707691431098000, 22949104961468878659120, 22951143819466981949550, 22952126099898562630800, 22954143247882843550070,
  22955117470999011160400, 22956161165477535830630, 22957135775738825247870, 22958109709931415874350, 22959129666648002018120,
  22961146502106847896340, 22962141241175888928560, 22963138478642122646980, 22964161165477535830630, 22966154234005730231160,
  22968111490519521474240, 22969103524021291997700, 22970161165477535830630, 22971098231284747365810, 22972172151600422511700,
  22973130255053002247450, 22974102846652762995450, 22977149125749492571260, 22978156057221298170710, 22979151357185005713360,
  22980135015879755468640, 22982100971438377858380, 22983131042861780778600, 22984144425713200113900, 22985124529861074534160,
  22986089022886479085560, 22987088439179063192380, 22988139962842173829710, 22989135775738825247870, 22990145761027126359140,
  22991118728257902863610, 22992100442715637386670, 22993097862328474489000, 22994126718652599811680, 22995083277835568714100,
  22996099052785564263850, 22998152692498931958590, 22999135775738825247870, 23000109498588295134610, 23001132448681286990500,
  23002110497421880197510, 23003130407727723555350, 23004102481929036371880, 23005103245509221040060, 23006123399627190500200,
  23007126718652599811680, 23008146502106847896340, 23009148172647694528020, 23010133865186457620770, 23011112515806986327260,
  23012122879063570939660, 23013106152895430383350, 23014133439590313432820, 23016113774295950852320, 23017114406084967067640,
  23018138139626605890160, 23019154234005730231160, 23020112749887895307400, 23021151357185005713360, 23022131547170317047520,
  23023165220128616912270, 23024172151600422511700, 23025134539599265576090, 23027124702279138879210, 23028135262805881372350,
  23029137811728377660250, 23031145761027126359140, 23032139962842173829710, 23033105181257945846870, 23034165220128616912270,
  23035125330288151269520, 23037138478642122646980, 23039114689568517110190, 23040158288656811312820, 23041096587320728109190,
  23042156057221298170710, 23043097291074243880310, 23044124444754177855060, 23045129956523370750650, 23046112413504303819100,
  23047107351154803245180, 23048123248109140294190, 23049107168778927747380, 23050140371062119032250, 23051172151600422511700,
  23052103576459797057810, 23053126200401921165820, 23057105144289327033600, 23059117098285063188090, 23062161165477535830630,
  23064089283868111199200, 23065165220128616912270, 23067126612831506506300, 23068102548123131498650, 23071101572621048393150,
  23072141241175888928560, 23073120618684477533920, 23075117858144132967300, 23077098108809242139030, 23078172151600422511700,
  23081132448681286990500, 23085165220128616912270, 23088172151600422511700, 23089126612831506506300, 23090110227975527763000,
  23092108801057907531130, 23093172151600422511700, 23094095363710440520180, 23098172151600422511700, 23099172151600422511700,
  23100123025051565151190, 23101165220128616912270, 23102141706376045277480, 23103124111389975179150, 23104125238121600220270,
  23105124444754177855060, 23106108801057907531130, 23107111892940684258570, 23108116279113838509220, 23109117555745281070130,
  23110106428774995571640, 23111122315534205428360, 23112172151600422511700, 23113119524698533462870, 23114116738964970927450,
  23116165220128616912270, 23117158288656811312820, 23119113430422527757560, 23120172151600422511700, 23122165220128616912270,
  23124172151600422511700, 23125123709729557925810, 23130092286551036971770, 23132172151600422511700, 23135172151600422511700,
  23138109613312306756980, 23142101250832064750800, 23143127608127459976630, 23145172151600422511700, 23146140796658263220230]

def emitS5 : List Nat := [
  23148172151600422511700, 23149129956523370750650, 23150172151600422511700, 23152165220128616912270, 23154109827120257006480,
  23155144425713200113900, 23156109555785781862480, 23157126612831506506300, 23158099511298993516420, 23159123323581196648000,
  23160172151600422511700, 23162132448681286990500, 23163165220128616912270, 23164139193231762468430, 23165130255053002247450,
  23167119840514253965850, 23169149125749492571260, 23173172151600422511700, 23177158288656811312820, 23179152692498931958590,
  23183172151600422511700, 23185172151600422511700, 23186109709931415874350, 23188172151600422511700, 23190145761027126359140,
  23193172151600422511700, 23194116279113838509220, 23195124966611709560770, 23196165220128616912270, 23199172151600422511700,
  23200150179354649149520, 23206165220128616912270, 23207110227975527763000, 23210135775738825247870, 23213165220128616912270,
  23215148172647694528020, 23216145761027126359140, 23217154234005730231160, 23218141706376045277480, 23219123173202423002600,
  23220130104674228602060, 23221152692498931958590, 23222165220128616912270, 23223135515983961215250, 23224129247006011027800,
  23225154234005730231160, 23226131042861780778600, 23227172151600422511700, 23228158288656811312820, 23229165220128616912270,
  23230134084975524808530, 23231136887995176350100, 23232148172647694528020, 23233094710234146231800, 23234105230762997445440,
  23235143819466981949550, 23236141706376045277480, 23237161165477535830630, 23238141241175888928560, 23240141241175888928560,
  23241117598389268934700, 23243145071098411489620, 23244097709113927544650, 23245122453467426751700, 23246152692498931958590,
  23247156057221298170710, 23249137494241394514450, 23250138829555320759680, 23251145761027126359140, 23252123476255917955900,
  23254121214098414444100, 23255143247882843550070, 23256139962842173829710, 23257146502106847896340, 23258136887995176350100,
  23259156057221298170710, 23260148172647694528020, 23261150179354649149520, 23262161165477535830630, 23263141241175888928560,
  23264135775738825247870, 23265116316637334694730, 23266126612831506506300, 23267103503122642803120, 23268130255053002247450,
  23269151357185005713360, 23270135015879755468640, 23271152692498931958590, 23272134774904239678030, 23273095871289153208360,
  23274137186524807846900, 23275138829555320759680, 23276172151600422511700, 23277127043005357343200, 23278158288656811312820,
  23280165220128616912270, 23281138829555320759680, 23283116241730617403150, 23285142194277686971800, 23288165220128616912270,
  23289172151600422511700, 23291108801057907531130, 23292165220128616912270, 23293172151600422511700, 23294138478642122646980,
  23295144425713200113900, 23296138478642122646980, 23297133865186457620770, 23301172151600422511700, 23304112413504303819100,
  23305122879063570939660, 23307165220128616912270, 23308107351154803245180, 23310158288656811312820, 23318122179477684870560,
  23319132833344095268460, 23321138829555320759680, 23322158288656811312820, 23323147302533924631700, 23325150179354649149520,
  23328165220128616912270, 23329138829555320759680, 23330165220128616912270, 23332131208154800290710, 23335149125749492571260,
  23336122523154119912640, 23337107198944863141640, 23338123476255917955900, 23339105584335180727800, 23340113515288666530750,
  23341115047330248763020, 23342114040190492744700, 23344109555785781862480, 23346133865186457620770, 23348130562769588915000,
  23350110709744081255260, 23351131208154800290710, 23352099511298993516420, 23358158288656811312820, 23360126718652599811680,
  23363165220128616912270, 23366165220128616912270, 23368154234005730231160, 23370165220128616912270, 23372123248109140294190,
  23374138139626605890160, 23376073582925103502700, 23377140796658263220230, 23378172151600422511700, 23380091625452234356060,
  23381111630708733267540, 23382154234005730231160, 23383072928507354744560, 23384089258717192508550, 23385087698925904065220,
  23386129247006011027800, 23387116817705535236520, 23388118776219625498540, 23389096852166716495830, 23390154234005730231160,
  23391104307029796135280, 23392172151600422511700, 23393172151600422511700, 23394122112137363057120, 23395098255960885735370,
  23396096278495362285560, 23397138139626605890160, 23398074462329831107390, 23400121653040350016340, 23401118398816345670070,
  23402130720253158596390, 23403161165477535830630, 23404131721087744166210, 23405156057221298170710, 23406156057221298170710,
  23407172151600422511700, 23408115147164688604850, 23409146502106847896340, 23410137186524807846900, 23411113180061746144320,
  23412111352268471555800, 23413122247274554724350, 23416074462329831107390, 23418127725087857608560, 23420172151600422511700,
  23421116699825977716100, 23422126200401921165820, 23423130720253158596390, 23424118445220141235090, 23425097246306401904600,
  23427061987628963461100, 23428127843432434078570, 23429104083306818589950, 23430172151600422511700, 23431109088847553031560,
  23432085761032630780940, 23433081284573107331680, 23434141241175888928560, 23435087027784078321560, 23436077392298442980240,
  23437172151600422511700, 23439105393368206163240, 23440152692498931958590, 23441145071098411489620, 23443122315534205428360,
  23444152692498931958590, 23445118921500631127640, 23446172151600422511700, 23447091189517706011360, 23448078062147434079330,
  23449131898083515160230, 23450075422183707960150, 23451117303631087605160, 23452090452573948920260, 23453088042166506776450,
  23454083253004544781570, 23455165220128616912270, 23456105046369327987430, 23457093056705495774120, 23458088223969292131110,
  23459100535380393119840, 23460087896436394068380, 23461118680525115337030, 23462117220985989106230, 23463172151600422511700,
  23465165220128616912270, 23466115556778264915500, 23467084573763859170030, 23468145761027126359140, 23469158288656811312820,
  23470084573763859170030, 23471172151600422511700, 23472105330514448013620, 23473158288656811312820, 23474172151600422511700,
  23475090115823053132190, 23476103327225712533240, 23477114562582683738900, 23478065932962551093230, 23479158288656811312820,
  23480102807628323226140, 23481093366258461108100, 23484172151600422511700, 23485081012204445613440, 23486108783343111047300,
  23487104489683275908210, 23488136316411037950620, 23490118633019087751050, 23491150179354649149520, 23492093607788315988070,
  23493124615698511448070, 23494089436116674956580, 23495111630708733267540, 23496154234005730231160, 23497172151600422511700,
  23498172151600422511700, 23500093208419784095490, 23502161165477535830630, 23504123248109140294190, 23505154234005730231160,
  23506096087726524785200, 23507107274760237665610, 23508124276682994691260, 23509136887995176350100, 23510145761027126359140,
  23511140371062119032250, 23512132448681286990500, 23513140796658263220230, 23514122523154119912640, 23515172151600422511700,
  23516139193231762468430, 23517111398140111624870, 23518149125749492571260, 23519098072357196915720, 23520165220128616912270,
  23521110455493097597160, 23522111398140111624870, 23523149125749492571260, 23524121717349253319260, 23525130880256572060800,
  23526172151600422511700, 23527145071098411489620, 23528088821301025082600, 23529093056705495774120, 23530172151600422511700,
  23531074727806501098010, 23532081012204445613440, 23534099911352339653410, 23535156057221298170710, 23536097761884498553100,
  23537165220128616912270, 23538126508118507833360, 23539133650124405411130, 23541172151600422511700, 23542138139626605890160,
  23543136887995176350100, 23544104386530498789880, 23545050888126547869930, 23546086004772295576770, 23547090560713875832600,
  23548100652432061190640, 23549150179354649149520, 23550158288656811312820, 23551105009895123417000, 23552172151600422511700,
  23553084021678102812060, 23554154234005730231160, 23555138139626605890160, 23556087128774635706880, 23557145761027126359140,
  23558055008868383371910, 23559165220128616912270, 23560152692498931958590, 23561114344165264588420, 23562095391501102222840,
  23563152692498931958590, 23564126933714652021320, 23565050888126547869930, 23566165220128616912270, 23567062474963783680610,
  23568144425713200113900, 23569074084587584027360, 23571136042421296069470, 23572089755665879452020, 23573126508118507833360,
  23574092091258635021620, 23575145071098411489620, 23576103184657106284590, 23577151357185005713360, 23578086147292522648780,
  23579165220128616912270, 23580172151600422511700, 23581100488940681175340, 23582145071098411489620, 23583151357185005713360,
  23585161165477535830630, 23586145761027126359140, 23587165220128616912270, 23588093503560389227120, 23589138139626605890160,
  23591114883122946639740, 23592147302533924631700, 23593165220128616912270, 23594140796658263220230, 23595172151600422511700,
  23596141241175888928560, 23597165220128616912270, 23598149125749492571260, 23599116093579759551740, 23600131376225983454520,
  23601046974861814611980, 23603161165477535830630, 23604128713546203974880, 23605165220128616912270, 23606154234005730231160,
  23607128713546203974880, 23608093927153127618530, 23609109690532767696090, 23610104489683275908210, 23611129666648002018120,
  23612092710225511370600, 23613079931875860452815, 23614092430389133295150, 23615097358604044683390, 23616089208604333939370,
  23617107214062023994860, 23618084814049108862800, 23619148172647694528020, 23620161165477535830630, 23621081110694701177000,
  23622084958426667448000, 23623161165477535830630, 23624108316534073671650, 23625137811728377660250, 23626084958426667448000,
  23627092889185190802100, 23628135775738825247870, 23629139193231762468430, 23630109555785781862480, 23631103660937596177140,
  23632137186524807846900, 23633112137451642900210, 23635172151600422511700, 23637096339502160548260, 23638172151600422511700,
  23640161165477535830630, 23641127378232277729650, 23643172151600422511700, 23644137811728377660250, 23645165220128616912270,
  23646070489236838084740, 23647161165477535830630, 23648117770807333279760, 23649101659052009953350, 23650101659052009953350,
  23651147302533924631700, 23652084814049108862800, 23653114594178286642600, 23654151357185005713360, 23655161165477535830630,
  23656151357185005713360, 23658154234005730231160, 23659156057221298170710, 23660146502106847896340, 23661142707210630847300,
  23662172151600422511700, 23663105022038415741030, 23665071487461432228440, 23666172151600422511700, 23667143819466981949550,
  23668172151600422511700, 23670172151600422511700, 23672131721087744166210, 23673138478642122646980, 23674145761027126359140,
  23675128976719287148600, 23676092777853460878760, 23677088886432120116420, 23678091985121651933700, 23679120676655654377180,
  23680101267512635757770, 23681078461933069925700, 23682089106651442876060, 23683096927598108640470, 23684103682169026657910,
  23685165220128616912270, 23686172151600422511700, 23688152692498931958590, 23689172151600422511700, 23691114282626608844640,
  23692145071098411489620, 23693154234005730231160, 23696126301925635806000, 23697131376225983454520, 23700116354302162649500,
  23701158288656811312820, 23702172151600422511700, 23703086075778511072530, 23704115521995621152250, 23705149125749492571260,
  23706130720253158596390, 23707084087359783933020, 23708135015879755468640, 23713105597196918835240, 23714122179477684870560,
  23715121462558400309400, 23716156057221298170710, 23718172151600422511700, 23719151357185005713360, 23721094323527794114770,
  23722134309704083329110, 23723121525650092242050, 23724118260883124346700, 23725091405109671845200, 23727172151600422511700,
  23729100613262406723300, 23730172151600422511700, 23731101275863366931990, 23732165220128616912270, 23733134084975524808530,
  23734161165477535830630, 23735124789615938566760, 23736096524787955292870, 23737172151600422511700, 23738161165477535830630,
  23739172151600422511700, 23740152692498931958590, 23741141241175888928560, 23742149125749492571260, 23743172151600422511700,
  23745115875389285605340, 23746161165477535830630, 23747172151600422511700, 23748133031370368230260, 23749156057221298170710,
  23750158288656811312820, 23751121525650092242050, 23752172151600422511700, 23754172151600422511700, 23755134774904239678030,
  23757165220128616912270, 23758165220128616912270, 23759172151600422511700, 23760172151600422511700, 23761172151600422511700,
  23762134774904239678030, 23764172151600422511700, 23765172151600422511700, 23766161165477535830630, 23767158288656811312820,
  23768152692498931958590, 23769115147164688604850, 23770158288656811312820, 23771156057221298170710, 23772161165477535830630,
  23773158288656811312820, 23774116430060100734070, 23775165220128616912270, 23777097581279531287920, 23779115839482604298050]

def emitS6 : List Nat := [
  23780132448681286990500, 23781139193231762468430, 23782130104674228602060, 23783172151600422511700, 23784112697394336445970,
  23785161165477535830630, 23786119576646702233900, 23787156057221298170710, 23789121653040350016340, 23790172151600422511700,
  23791152692498931958590, 23792094933682654336360, 23793150179354649149520, 23796115521995621152250, 23797156057221298170710,
  23798165220128616912270, 23800151357185005713360, 23801158288656811312820, 23802149125749492571260, 23803114948482656437600,
  23804161165477535830630, 23805172151600422511700, 23807172151600422511700, 23809156057221298170710, 23810122806861091204790,
  23811125056298409388380, 23812114406084967067640, 23813151357185005713360, 23814137811728377660250, 23815102304437221329060,
  23816131547170317047520, 23817134774904239678030, 23818154234005730231160, 23819126200401921165820, 23820140371062119032250,
  23821125056298409388380, 23822131721087744166210, 23823133650124405411130, 23824126825605490979160, 23825142194277686971800,
  23826145761027126359140, 23827158288656811312820, 23828108165651077159650, 23829141706376045277480, 23830100683878627985340,
  23831141241175888928560, 23832161165477535830630, 23833152692498931958590, 23834115147164688604850, 23835128331334075772900,
  23836150179354649149520, 23838140371062119032250, 23839134539599265576090, 23840140371062119032250, 23841129810535376539120,
  23842139193231762468430, 23843172151600422511700, 23844129666648002018120, 23845156057221298170710, 23846142707210630847300,
  23847122247274554724350, 23848165220128616912270, 23849109498588295134610, 23850147302533924631700, 23852165220128616912270,
  23853133865186457620770, 23854136887995176350100, 23855146502106847896340, 23856138139626605890160, 23857136887995176350100,
  23858136887995176350100, 23859139193231762468430, 23860130407727723555350, 23861172151600422511700, 23864141706376045277480,
  23865165220128616912270, 23867172151600422511700, 23868130562769588915000, 23869126612831506506300, 23870128584512155615800,
  23871172151600422511700, 23873125517209481391050, 23874140371062119032250, 23875151357185005713360, 23876141241175888928560,
  23877165220128616912270, 23878132448681286990500, 23879143819466981949550, 23880120911960628479140, 23881151357185005713360,
  23882129247006011027800, 23883105831582648555410, 23884103682169026657910, 23885158288656811312820, 23886139193231762468430,
  23887147302533924631700, 23888152692498931958590, 23889150179354649149520, 23890138139626605890160, 23891161165477535830630,
  23893149125749492571260, 23894158288656811312820, 23895165220128616912270, 23896132833344095268460, 23897156057221298170710,
  23898172151600422511700, 23899139962842173829710, 23900165220128616912270, 23901135515983961215250, 23903158288656811312820,
  23905141706376045277480, 23907172151600422511700, 23910158288656811312820, 23911152692498931958590, 23912161165477535830630,
  23913120111533551743770, 23914156057221298170710, 23915139193231762468430, 23916134309704083329110, 23918141706376045277480,
  23919136042421296069470, 23920172151600422511700, 23921172151600422511700, 23923172151600422511700, 23924128207108875787320,
  23925152692498931958590, 23926158288656811312820, 23927156057221298170710, 23928146502106847896340, 23929161165477535830630,
  23930142707210630847300, 23931161165477535830630, 23932172151600422511700, 23933161165477535830630, 23934165220128616912270,
  23935151357185005713360, 23936161165477535830630, 23937135515983961215250, 23938127043005357343200, 23939133031370368230260,
  23940107108718687145250, 23941100087827507789200, 23942102388119718034240, 23943172151600422511700, 23944104664004947594920,
  23945116622004573295540, 23946156057221298170710, 23947172151600422511700, 23949172151600422511700, 23950154234005730231160,
  23951120503740683276580, 23952158288656811312820, 23954150179354649149520, 23955158288656811312820, 23956158288656811312820,
  23958165220128616912270, 23959122806861091204790, 23960172151600422511700, 23961131042861780778600, 23962172151600422511700,
  23963146502106847896340, 23964156057221298170710, 23965156057221298170710, 23966165220128616912270, 23967161165477535830630,
  23968132448681286990500, 23969150179354649149520, 23970115839482604298050, 23975133031370368230260, 23976172151600422511700,
  23979152692498931958590, 23980172151600422511700, 23982114406084967067640, 23983116583319805516330, 23984172151600422511700,
  23986165220128616912270, 23987156057221298170710, 23988149125749492571260, 23991133650124405411130, 23992132833344095268460,
  23994091405109671845200, 23996120676655654377180, 23997149125749492571260, 24002141706376045277480, 24004172151600422511700,
  24005121589142369028630, 24008139962842173829710, 24009145071098411489620, 24011172151600422511700, 24013117684226705848620,
  24014154234005730231160, 24015172151600422511700, 24017172151600422511700, 24018130104674228602060, 24019172151600422511700,
  24020156057221298170710, 24022149125749492571260, 24023172151600422511700, 24024172151600422511700, 24025158288656811312820,
  24027165220128616912270, 24028147302533924631700, 24029097674087622032640, 24030075378832400787230, 24031142707210630847300,
  24033105205979837300760, 24034107004473513786420, 24035172151600422511700, 24036172151600422511700, 24037089800645449928140,
  24038077561643297920560, 24039101110159492636440, 24040096072819689726640, 24041120734964857485120, 24043116817705535236520,
  24046083258517224083230, 24047145071098411489620, 24048152692498931958590, 24049096197727633971990, 24050060219165623946855,
  24051113832775649676550, 24052087208261449810160, 24053158288656811312820, 24054137186524807846900, 24055108504092853992600,
  24057151357185005713360, 24058156057221298170710, 24059132261759956868980, 24060139962842173829710, 24061122384262998305960,
  24062107552555878736360, 24063129110949490470010, 24064112855708988612770, 24065108350375053514070, 24066066150065074059800,
  24067087331796065906780, 24069105368179275968400, 24070109254444713421750, 24071120333764919590870, 24072078064607357834110,
  24073130880256572060800, 24076099303391296825690, 24077148172647694528020, 24078150179354649149520, 24079134084975524808530,
  24080090907131865353230, 24081129524801652098560, 24083131721087744166210, 24084140371062119032250, 24085107093759821229430,
  24086098821370278646900, 24087165220128616912270, 24088109768354172116640, 24089121525650092242050, 24090124276682994691260,
  24091115487333541387400, 24092117386964903196610, 24093089840502019230190, 24094161165477535830630, 24096165220128616912270,
  24097161165477535830630, 24100139193231762468430, 24101105368179275968400, 24102070596305483581850, 24103115014272367418030,
  24104165220128616912270, 24105172151600422511700, 24107123788781352996930, 24108152692498931958590, 24109098563291439088180,
  24110084366800897426850, 24111165220128616912270, 24112145071098411489620, 24113172151600422511700, 24114161165477535830630,
  24115161165477535830630, 24116122735176196418670, 24117172151600422511700, 24118070596305483581850, 24119118633019087751050,
  24120077392298442980240, 24121133865186457620770, 24122130880256572060800, 24123115113775675949710, 24124172151600422511700,
  24125105857967888137220, 24126146502106847896340, 24127124444754177855060, 24128115014272367418030, 24130125517209481391050,
  24131134084975524808530, 24132135775738825247870, 24133094466267413251380, 24134146502106847896340, 24135115214279034484730,
  24136172151600422511700, 24137156057221298170710, 24138161165477535830630, 24139172151600422511700, 24140111654265870192140,
  24142165220128616912270, 24143146502106847896340, 24144172151600422511700, 24145165220128616912270, 24146149125749492571260,
  24147111654265870192140, 24148120111533551743770, 24149098886944284108500, 24150158288656811312820, 24151172151600422511700,
  24152115113775675949710, 24153121337556772667100, 24155139962842173829710, 24156172151600422511700, 24158135775738825247870,
  24159117386964903196610, 24161114625874034255400, 24162110624273475470680, 24163172151600422511700, 24165172151600422511700,
  24170172151600422511700, 24171084366800897426850, 24172172151600422511700, 24175172151600422511700, 24178073211674242768450,
  24179078140340350689050, 24180047917245213658150, 24181156057221298170710, 24182057655152232086860, 24183131898083515160230,
  24184104375134486160550, 24185073211674242768450, 24186091275197544721890, 24187111965668277549370, 24188104628896661094300,
  24189106289883873964970, 24190081887425084359170, 24191087686039304343750, 24192125423312077892660, 24196098367763292544570,
  24197161165477535830630, 24198094836680130054880, 24199109385165529095280, 24201165220128616912270, 24202091430047340629220,
  24203117858144132967300, 24204172151600422511700, 24207102102780525383120, 24208114785877447719800, 24209108998020407288370,
  24211095793731808555870, 24212070672763823673830, 24213083607805834800640, 24214119421604836874260, 24215090786417901358800,
  24216140371062119032250, 24217087942575111532210, 24218123025051565151190, 24219135262805881372350, 24220078427008207985530,
  24221107320526907939730, 24222110970628442098230, 24223093362471299540390, 24224129956523370750650, 24225107366504000426030,
  24226105571489963804230, 24227113716156252198120, 24228116354302162649500, 24229133031370368230260, 24230086989673511685180,
  24231080392040971368200, 24232119068923448499660, 24235095793731808555870, 24237109366386180853270, 24239117139018317064440,
  24242172151600422511700, 24243156057221298170710, 24245099462399140574500, 24246107615350433584800, 24247102332253650947840,
  24248098317918952587890, 24249137811728377660250, 24252165220128616912270, 24254130407727723555350, 24256172151600422511700,
  24257122664001518730040, 24258110795951511694320, 24260161165477535830630, 24262139570635042296890, 24264116020319358631010,
  24265110603019482347540, 24266092976236883075400, 24267165220128616912270, 24268154234005730231160, 24273151357185005713360,
  24274143819466981949550, 24275120561047430366430, 24277158288656811312820, 24278112541547026278990, 24279161165477535830630,
  24280172151600422511700, 24281165220128616912270, 24282151357185005713360, 24283147302533924631700, 24284172151600422511700,
  24285165220128616912270, 24286172151600422511700, 24287087942575111532210, 24288085620383336106900, 24289108998020407288370,
  24290093362471299540390, 24291165220128616912270, 24292172151600422511700, 24294172151600422511700, 24296128844267019648410,
  24297128713546203974880, 24298128713546203974880, 24300165220128616912270, 24301165220128616912270, 24305156057221298170710,
  24306149125749492571260, 24307088852607492554480, 24308133865186457620770, 24309141241175888928560, 24310104746406826449480,
  24311100450404988015440, 24312161165477535830630, 24314078557102476871480, 24317165220128616912270, 24318146502106847896340,
  24319150179354649149520, 24320069787780744417140, 24321118824412489858030, 24322090675823060494000, 24323099420674462516490,
  24324085523092784125700, 24327140371062119032250, 24328132448681286990500, 24329158288656811312820, 24330109052417640246550,
  24331135015879755468640, 24332165220128616912270, 24333165220128616912270, 24334161165477535830630, 24335077472360456472410,
  24337123476255917955900, 24338123476255917955900, 24339102876021359728560, 24340161165477535830630, 24341085936068355106910,
  24342156057221298170710, 24343105584335180727800, 24344121214098414444100, 24345172151600422511700, 24347124966611709560770,
  24349132639163236697430, 24351091389555150121460, 24352071301012143117930, 24353137186524807846900, 24354134774904239678030,
  24356152692498931958590, 24357109690532767696090, 24358089032704840208140, 24359109385165529095280, 24360165220128616912270,
  24361112619167079633870, 24362165220128616912270, 24364124193694966544310, 24365133650124405411130, 24367096018350627105310,
  24368139962842173829710, 24369092141400809275200, 24370172151600422511700, 24371165220128616912270, 24372154234005730231160,
  24373071301012143117930, 24374131208154800290710, 24375133233397441405450, 24376137811728377660250, 24377087861425417386600,
  24378074542157965005860, 24379134539599265576090, 24380124702279138879210, 24381116817705535236520, 24384119681359700906850,
  24385124444754177855060, 24386117814380386969320, 24387145071098411489620, 24389150179354649149520, 24390172151600422511700,
  24391125517209481391050, 24392125611996920936480, 24393128844267019648410, 24394130880256572060800, 24396139570635042296890,
  24397140371062119032250, 24398096018350627105310, 24402083196674107995400, 24403065533463681301270, 24404140796658263220230]

def emitS7 : List Nat := [
  24405097014507944114660, 24406141706376045277480, 24407131208154800290710, 24408126404490637477900, 24409135515983961215250,
  24411122247274554724350, 24412122664001518730040, 24413112697394336445970, 24414138139626605890160, 24415130720253158596390,
  24418082664442084074800, 24419158288656811312820, 24420126404490637477900, 24421158288656811312820, 24422105857967888137220,
  24423112162234803044890, 24424121092145683505910, 24425094667000183514740, 24426111352268471555800, 24427144425713200113900,
  24428106442770799115870, 24429102778459610274900, 24430134084975524808530, 24431161165477535830630, 24432117345211189091800,
  24433095180387249685460, 24434108872232585219760, 24435145071098411489620, 24436135515983961215250, 24437165220128616912270,
  24438139193231762468430, 24439124111389975179150, 24440130720253158596390, 24441094327697066637130, 24442145761027126359140,
  24443114625874034255400, 24444100207231911508380, 24445161165477535830630, 24446138139626605890160, 24447138829555320759680,
  24448074757220017215490, 24449093492046283176700, 24450150179354649149520, 24451119894133685379700, 24452097358604044683390,
  24453079798344175810800, 24454144425713200113900, 24455133865186457620770, 24456060718066180977420, 24457146502106847896340,
  24458119948042171728470, 24459095784079298153910, 24460101176111916363800, 24461143819466981949550, 24462144425713200113900,
  24463172151600422511700, 24464094636847242297150, 24465097358604044683390, 24466095475339506661820, 24467165220128616912270,
  24469145071098411489620, 24470172151600422511700, 24471054059967102462920, 24472138829555320759680, 24473105456619523932920,
  24476158288656811312820, 24477165220128616912270, 24478056029776506836020, 24479172151600422511700, 24480145071098411489620,
  24481086892053451663620, 24482151357185005713360, 24484172151600422511700, 24488131376225983454520, 24489165220128616912270,
  24490104375134486160550, 24491172151600422511700, 24492136598119807617580, 24493123709729557925810, 24494087280137721872300,
  24495154234005730231160, 24496156057221298170710, 24499141241175888928560, 24500172151600422511700, 24501126301925635806000,
  24502172151600422511700, 24503080509683263009700, 24505114625874034255400, 24506158288656811312820, 24508141706376045277480,
  24509112112729751446330, 24513161165477535830630, 24514172151600422511700, 24515070791332167604715, 24516158288656811312820,
  24517081032045721963900, 24518117303631087605160, 24519165220128616912270, 24520158288656811312820, 24522146502106847896340,
  24523130720253158596390, 24524088637853355298740, 24525095517523773576920, 24526113658352623043120, 24527131208154800290710,
  24528143247882843550070, 24529158288656811312820, 24530108149025969423500, 24531109517617796595470, 24532112137451642900210,
  24533119218552175266800, 24534125517209481391050, 24535090080308741798460, 24536087066040442305980, 24537079895370467438320,
  24538118445220141235090, 24539122806861091204790, 24540172151600422511700, 24541127265236725190330, 24542149125749492571260,
  24544095326775957166670, 24545148172647694528020, 24547165220128616912270, 24548125056298409388380, 24549124877722235388320,
  24550156057221298170710, 24551097291074243880310, 24552172151600422511700, 24554158288656811312820, 24555072175903363539050,
  24556152692498931958590, 24557149125749492571260, 24558161165477535830630, 24559172151600422511700, 24561129110949490470010,
  24562161165477535830630, 24565089266255828372540, 24566165220128616912270, 24567165220128616912270, 24568150179354649149520,
  24569165220128616912270, 24571131547170317047520, 24572161165477535830630, 24573082683946673835360, 24574136598119807617580,
  24575112515806986327260, 24576096561217868077880, 24577097969792195243830, 24578119319563135131830, 24580132078268570187000,
  24581133233397441405450, 24582133233397441405450, 24583172151600422511700, 24584145071098411489620, 24585172151600422511700,
  24586165220128616912270, 24589143247882843550070, 24590083999384863290100, 24591149125749492571260, 24594087698925904065220,
  24595172151600422511700, 24596093152647191114410, 24597078903309437902910, 24598127492519235965890, 24599156057221298170710,
  24600148172647694528020, 24601141241175888928560, 24602172151600422511700, 24603131208154800290710, 24604113716156252198120,
  24605093449940957813260, 24606161165477535830630, 24607161165477535830630, 24608112287080369667350, 24609106755740866335010,
  24610161165477535830630, 24611156057221298170710, 24613078981200516159330, 24614130880256572060800, 24615076793361605964580,
  24616099752274509307030, 24617149125749492571260, 24618084996079163433560, 24619132639163236697430, 24620158288656811312820,
  24621165220128616912270, 24623107902910183457830, 24624172151600422511700, 24625152692498931958590, 24626161165477535830630,
  24627161165477535830630, 24629125330288151269520, 24630165220128616912270, 24632172151600422511700, 24633165220128616912270,
  24635071467938465328100, 24636122879063570939660, 24638172151600422511700, 24639146502106847896340, 24641114531086594709950,
  24642134539599265576090, 24643113207572079863200, 24644165220128616912270, 24645146502106847896340, 24646108082800561818570,
  24647150179354649149520, 24648156057221298170710, 24649165220128616912270, 24650144425713200113900, 24651109254444713421750,
  24653114282626608844640, 24654158288656811312820, 24655172151600422511700, 24656098237448075758140, 24657172151600422511700,
  24658108082800561818570, 24659138478642122646980, 24660161165477535830630, 24661104397939513147800, 24662172151600422511700,
  24663172151600422511700, 24665142707210630847300, 24666120111533551743770, 24667158288656811312820, 24668156057221298170710,
  24670165220128616912270, 24672161165477535830630, 24673172151600422511700, 24674109107112398291900, 24675126404490637477900,
  24676118633019087751050, 24677161165477535830630, 24678165220128616912270, 24679156057221298170710, 24680088869505505024390,
  24681090618102842522800, 24682114818187653534260, 24683136316411037950620, 24684131042861780778600, 24685101452859137926000,
  24687098769218921855820, 24688103265875826858090, 24690146502106847896340, 24691113262820839182900, 24692161165477535830630,
  24693156057221298170710, 24694091644566607808730, 24695172151600422511700, 24696119948042171728470, 24698122112137363057120,
  24699122664001518730040, 24700103114127846665740, 24701140371062119032250, 24702172151600422511700, 24703126718652599811680,
  24704151357185005713360, 24705161165477535830630, 24706156057221298170710, 24707141241175888928560, 24708111868815220204730,
  24709115487333541387400, 24710125146796764587550, 24711126404490637477900, 24712158288656811312820, 24713106386904732029470,
  24714118445220141235090, 24716131547170317047520, 24717117513282372255610, 24718127492519235965890, 24719147302533924631700,
  24720147302533924631700, 24721158288656811312820, 24722152692498931958590, 24723110227975527763000, 24724106098621213029700,
  24725124029756868787540, 24726114883122946639740, 24727111630708733267540, 24728158288656811312820, 24729151357185005713360,
  24730127725087857608560, 24731158288656811312820, 24732118260883124346700, 24733158288656811312820, 24734172151600422511700,
  24735102166504000005710, 24736124029756868787540, 24737142707210630847300, 24738172151600422511700, 24739095856701258571770,
  24740172151600422511700, 24741140371062119032250, 24742115487333541387400, 24743123709729557925810, 24744076170434250379090,
  24746161165477535830630, 24747156057221298170710, 24748096825364234623840, 24749145761027126359140, 24750165220128616912270,
  24751127608127459976630, 24752140371062119032250, 24753154234005730231160, 24754105343053634609570, 24755150179354649149520,
  24756126718652599811680, 24757165220128616912270, 24758124966611709560770, 24759150179354649149520, 24760130562769588915000,
  24761158288656811312820, 24762149125749492571260, 24763142707210630847300, 24764125056298409388380, 24765140796658263220230,
  24766149125749492571260, 24767161165477535830630, 24768128084407949869180, 24769140371062119032250, 24770125611996920936480,
  24771158288656811312820, 24772158288656811312820, 24773081835875488696460, 24774139962842173829710, 24775126718652599811680,
  24776143247882843550070, 24777120166630109853450, 24778081771512930395950, 24779141706376045277480, 24780137494241394514450,
  24781172151600422511700, 24782161165477535830630, 24783165220128616912270, 24784161165477535830630, 24785119840514253965850,
  24787156057221298170710, 24788141241175888928560, 24789127963194344545740, 24790156057221298170710, 24791172151600422511700,
  24792136042421296069470, 24793161165477535830630, 24794137494241394514450, 24795138478642122646980, 24796109498588295134610,
  24797158288656811312820, 24798152692498931958590, 24799103358042377907320, 24800105779020109667150, 24801091644566607808730,
  24802152692498931958590, 24803143819466981949550, 24804127265236725190330, 24805145761027126359140, 24806129247006011027800,
  24807099469370210916070, 24808101495466786534540, 24809117684226705848620, 24810165220128616912270, 24811130562769588915000,
  24812145761027126359140, 24813122523154119912640, 24814134084975524808530, 24815101521118788630000, 24816115697131446079350,
  24817172151600422511700, 24818156057221298170710, 24819061818199653108770, 24820127153503719209070, 24822114344165264588420,
  24824165220128616912270, 24825098330356765136600, 24826110795951511694320, 24827122664001518730040, 24828172151600422511700,
  24829149125749492571260, 24830172151600422511700, 24832138829555320759680, 24833101427381417138010, 24834172151600422511700,
  24835165220128616912270, 24837156057221298170710, 24838130104674228602060, 24839165220128616912270, 24840093362471299540390,
  24841116660839573559510, 24842172151600422511700, 24844151357185005713360, 24845132639163236697430, 24846137494241394514450,
  24847077428400951755810, 24848172151600422511700, 24850154234005730231160, 24852144425713200113900, 24853114100250733346830,
  24854165220128616912270, 24855172151600422511700, 24856145761027126359140, 24857165220128616912270, 24858109748841970804030,
  24859142707210630847300, 24860145761027126359140, 24861165220128616912270, 24862149125749492571260, 24863085630863686411160,
  24864125804310540215360, 24866161165477535830630, 24867097809026601180360, 24868110065700161545430, 24869172151600422511700,
  24870138139626605890160, 24871113515288666530750, 24872147302533924631700, 24873128844267019648410, 24874113921141467681530,
  24875138139626605890160, 24876109594100004978050, 24877112287080369667350, 24878119019540632093840, 24879122735176196418670,
  24880122951791164230460, 24881151357185005713360, 24882165220128616912270, 24884133233397441405450, 24886116977071457864630,
  24887122112137363057120, 24889172151600422511700, 24890172151600422511700, 24891161165477535830630, 24893161165477535830630,
  24894158288656811312820, 24895084297734549670160, 24896165220128616912270, 24897158288656811312820, 24898146502106847896340,
  24900172151600422511700, 24901165220128616912270, 24902165220128616912270, 24903161165477535830630, 24904106828257500288220,
  24906122951791164230460, 24907097969792195243830, 24908096629227546903700, 24909172151600422511700, 24910111630708733267540,
  24913118633019087751050, 24914172151600422511700, 24915141706376045277480, 24917112490133031274800, 24919172151600422511700,
  24920161165477535830630, 24922122523154119912640, 24923118169973407334190, 24924165220128616912270, 24925143247882843550070,
  24927119948042171728470, 24930093290786404754260, 24931101521118788630000, 24932172151600422511700, 24933161165477535830630,
  24934172151600422511700, 24935108660210508713750, 24936129956523370750650, 24938132078268570187000, 24939165220128616912270,
  24942172151600422511700, 24943172151600422511700, 24944111126014476376030, 24945165220128616912270, 24947145761027126359140,
  24948154234005730231160, 24949129524801652098560, 24950094836680130054880, 24951126099898562630800, 24952148172647694528020,
  24953154234005730231160, 24954158288656811312820, 24955172151600422511700, 24956172151600422511700, 24957172151600422511700,
  24958152692498931958590, 24960172151600422511700, 24962097291074243880310, 24963172151600422511700, 24964172151600422511700,
  24966172151600422511700, 24967172151600422511700, 24968172151600422511700, 24969136887995176350100, 24970172151600422511700,
  24971104116547846428330, 24973158288656811312820, 24974121337556772667100, 24976113716156252198120, 24977085639605709872000,
  24978138139626605890160, 24980141706376045277480, 24982142194277686971800, 24983152692498931958590, 24986147302533924631700]

def emitS8 : List Nat := [
  24988130880256572060800, 24989152692498931958590, 24990141241175888928560, 24991151357185005713360, 24993126825605490979160,
  24996110065700161545430, 24998165220128616912270, 24999128844267019648410, 25000114948482656437600, 25001134774904239678030,
  25002156057221298170710, 25003127608127459976630, 25004133031370368230260, 25007138478642122646980, 25008161165477535830630,
  25010115556778264915500, 25011117513282372255610, 25013172151600422511700, 25014117303631087605160, 25015131898083515160230,
  25016152692498931958590, 25018151357185005713360, 25019165220128616912270, 25021172151600422511700, 25022125056298409388380,
  25023121092145683505910, 25026089216105271908270, 25029158288656811312820, 25030138478642122646980, 25031145761027126359140,
  25032120852613273280980, 25033070672763823673830, 25034128457121897841500, 25035132448681286990500, 25036146502106847896340,
  25037131376225983454520, 25041144425713200113900, 25042108265986367055420, 25043161165477535830630, 25044131376225983454520,
  25045172151600422511700, 25046172151600422511700, 25047133865186457620770, 25049145761027126359140, 25052134774904239678030,
  25053158288656811312820, 25054154234005730231160, 25055161165477535830630, 25056135262805881372350, 25057115080497775022950,
  25058172151600422511700, 25059144425713200113900, 25062119473018831878440, 25067165220128616912270, 25069165220128616912270,
  25070172151600422511700, 25073165220128616912270, 25074117684226705848620, 25077119576646702233900, 25078108265986367055420,
  25079096561217868077880, 25080096825364234623840, 25082131208154800290710, 25084099469370210916070, 25085143247882843550070,
  25086118633019087751050, 25087109827120257006480, 25088109254444713421750, 25094143247882843550070, 25095143247882843550070,
  25096113016570366129020, 25097165220128616912270, 25098121214098414444100, 25099156057221298170710, 25100127963194344545740,
  25101120503740683276580, 25102112211986149446030, 25103091929191254446340, 25104065034125020545930, 25105045118304119971455,
  25106098646438704171740, 25108143247882843550070, 25109132448681286990500, 25110059386913576572780, 25111131208154800290710,
  25112081254066332641060, 25113129247006011027800, 25114114010295104261060, 25115128457121897841500, 25116107168778927747380,
  25117104913276014299640, 25118110413739383492350, 25119103034127419994960, 25120110476435513628300, 25121145071098411489620,
  25122138829555320759680, 25123111796786097264160, 25124161165477535830630, 25125145071098411489620, 25126121847221208587350,
  25127131208154800290710, 25129156057221298170710, 25130099420674462516490, 25132156057221298170710, 25134119524698533462870,
  25135116392109391048550, 25136081254066332641060, 25138172151600422511700, 25139100566460449218520, 25140088262548711364650,
  25141172151600422511700, 25142089079474156228620, 25143089079474156228620, 25145172151600422511700, 25149158288656811312820,
  25150127265236725190330, 25151084500136206121500, 25152059706108778749110, 25153099160385795403720, 25154172151600422511700,
  25155152692498931958590, 25158138829555320759680, 25159092685424790067000, 25160131721087744166210, 25161138829555320759680,
  25163069586943706206010, 25164141706376045277480, 25165062925544480414180, 25166092330851671699700, 25169087988927694248940,
  25170101843025661350500, 25171067853771415453620, 25172094845459761874320, 25176091186471247495790, 25179104617221236533910,
  25180146502106847896340, 25182165220128616912270, 25184133650124405411130, 25186138829555320759680, 25187098919893243077010,
  25188146502106847896340, 25189165220128616912270, 25190137186524807846900, 25191095184929607247100, 25193096509215670806810,
  25194133233397441405450, 25195096535182966623920, 25196097999849326378770, 25197100036033089373700, 25198103276074705865530,
  25199092565831384372730, 25200108979953555038880, 25201142707210630847300, 25203107289992533070820, 25205156057221298170710,
  25206091743910478835920, 25209086398866397584100, 25210158288656811312820, 25212116977071457864630, 25214072697630866378340,
  25215081901858572551700, 25216101851871305447850, 25217154234005730231160, 25219165220128616912270, 25220099773818503277300,
  25221161165477535830630, 25222161165477535830630, 25223161165477535830630, 25225140796658263220230, 25226056246626116860590,
  25228172151600422511700, 25229136316411037950620, 25230156057221298170710, 25233110882908581369860, 25234123868463049488700,
  25235084369881612177040, 25236154234005730231160, 25237085972169477347920, 25238099323988626455790, 25239090760113633671060,
  25240088235300738102800, 25242099399877227984000, 25243095750368695558080, 25244172151600422511700, 25247133865186457620770,
  25248114850602592775970, 25249113921141467681530, 25250085521364026233950, 25252092742202799233800, 25253076231692269328640,
  25256152692498931958590, 25257172151600422511700, 25258172151600422511700, 25259099918643626888580, 25260088131532606440520,
  25262172151600422511700, 25265085083387188585400, 25268154234005730231160, 25269094092780020225510, 25273095144122477393740,
  25274158288656811312820, 25275129956523370750650, 25276098893525396553980, 25277092856735189368820, 25278161165477535830630,
  25279112490133031274800, 25282104501210654706300, 25283151357185005713360, 25284115014272367418030, 25285096561217868077880,
  25286097426592975136130, 25287115452791192706530, 25288109403980210092340, 25289077566323485213475, 25290131042861780778600,
  25291123948784766461340, 25292101300957482986240, 25293085098289087195400, 25294108998020407288370, 25295148172647694528020,
  25296098640018158204780, 25297156057221298170710, 25298100890727689520470, 25299116506396349284780, 25300093492046283176700,
  25301172151600422511700, 25302090678717835445490, 25303116354302162649500, 25304115281846859113520, 25305117179918169579700,
  25306103492689673677330, 25307086495577116272480, 25308084608415020003060, 25309165220128616912270, 25310161165477535830630,
  25311096556005462434720, 25312152692498931958590, 25313147302533924631700, 25314105752842084246360, 25315105205979837300760,
  25316140796658263220230, 25317094933682654336360, 25318101598471989114200, 25319107536918658974550, 25320095424021456086620,
  25321107004473513786420, 25323131547170317047520, 25324111537031233231550, 25325114251998713539180, 25326140371062119032250,
  25327134309704083329110, 25328107305248066159200, 25329091389555150121460, 25330165220128616912270, 25331095433332443723910,
  25332106974887693388960, 25333165220128616912270, 25334140796658263220230, 25335118124826603788920, 25337156057221298170710,
  25338136887995176350100, 25339146502106847896340, 25340102075594282993180, 25341101737483784563610, 25342099737937589288550,
  25343073138749132702440, 25344172151600422511700, 25345089148798523985080, 25346084123368825092850, 25348141706376045277480,
  25351077140174704869640, 25352131898083515160230, 25353072625014457085940, 25355148172647694528020, 25356148172647694528020,
  25357172151600422511700, 25358107822199495119920, 25359165220128616912270, 25361092653628260893200, 25362139570635042296890,
  25363144425713200113900, 25365172151600422511700, 25366092475333029173560, 25367145761027126359140, 25368172151600422511700,
  25369135775738825247870, 25370121847221208587350, 25371130104674228602060, 25372152692498931958590, 25373126825605490979160,
  25374133650124405411130, 25375106640797072077670, 25376109690532767696090, 25377092255995929173050, 25378143247882843550070,
  25379102341543015294420, 25380094920399499848400, 25381089096760245234810, 25382140371062119032250, 25383139962842173829710,
  25384098036037544400080, 25386106813712043178290, 25387111329411318747250, 25388161165477535830630, 25390165220128616912270,
  25391104535872734471160, 25392141706376045277480, 25394142707210630847300, 25395156057221298170710, 25396152692498931958590,
  25397172151600422511700, 25398120676655654377180, 25399161165477535830630, 25400158288656811312820, 25401141706376045277480,
  25402089877845354171360, 25404144425713200113900, 25405103513566507982180, 25406172151600422511700, 25408156057221298170710,
  25410110581810566656160, 25411151357185005713360, 25412172151600422511700, 25413107710287855507310, 25414106372986845301250,
  25415142707210630847300, 25416172151600422511700, 25417094352749271806500, 25418150179354649149520, 25419109886233729637070,
  25420130720253158596390, 25421129956523370750650, 25422106513045157190440, 25423097844529597052040, 25424102994365936198570,
  25425172151600422511700, 25426158288656811312820, 25429095602429944028500, 25432172151600422511700, 25438103378639707537430,
  25439102876021359728560, 25441101798914429700740, 25442084382213970761770, 25443101069159025196310, 25447092358211469888440,
  25448165220128616912270, 25449156057221298170710, 25451133233397441405450, 25452172151600422511700, 25453172151600422511700,
  25454073416678872504450, 25457121214098414444100, 25458172151600422511700, 25461172151600422511700, 25462109052417640246550,
  25463106071594169550850, 25466120333764919590870, 25467108149025969423500, 25469134539599265576090, 25472109385165529095280,
  25474118035139903961320, 25475096535182966623920, 25476113921141467681530, 25478165220128616912270, 25479126099898562630800,
  25480092607877697193060, 25481081858620455705630, 25482154234005730231160, 25483136042421296069470, 25484081424738355737850,
  25485122453467426751700, 25486161165477535830630, 25487104758234148939980, 25488110731226366638150, 25489120852613273280980,
  25490089588122693331550, 25491119370453830206550, 25492124615698511448070, 25493128584512155615800, 25494115732529713130590,
  25495129247006011027800, 25496100259923038308490, 25497102341543015294420, 25499165220128616912270, 25502126404490637477900,
  25504101275863366931990, 25505142707210630847300, 25506094361113973256150, 25507110666917463335250, 25508158288656811312820,
  25509079546019541143720, 25511102258247762766120, 25512084630528439218080, 25513098442998757144550, 25514118728257902863610,
  25516126718652599811680, 25517152692498931958590, 25518132448681286990500, 25519152692498931958590, 25520116167380832527960,
  25523110795951511694320, 25524138478642122646980, 25527094589646983030540, 25528119681359700906850, 25530118728257902863610,
  25532124193694966544310, 25534125707691431098000, 25536105205979837300760, 25540143247882843550070, 25542132261759956868980,
  25545102964648232307000, 25548151357185005713360, 25549117946250429788860, 25550139962842173829710, 25551112464524822658060,
  25552079827646794941570, 25554089364778792802660, 25558105597196918835240, 25560172151600422511700, 25562172151600422511700,
  25563152692498931958590, 25565145761027126359140, 25566158288656811312820, 25568165220128616912270, 25569094885063774035300,
  25571109347642032909760, 25574172151600422511700, 25577110330751355345400, 25578100021283824163020, 25579172151600422511700,
  25581102276697952501810, 25582089096760245234810, 25583165220128616912270, 25584172151600422511700, 25586146502106847896340,
  25587161165477535830630, 25588102759060962096630, 25589134774904239678030, 25592151357185005713360, 25597109016119959740760,
  25598154234005730231160, 25599126825605490979160, 25600113016570366129020, 25601103618609490650930, 25602100312893271887200,
  25605104593911202669170, 25607154234005730231160, 25610165220128616912270, 25611161165477535830630, 25613172151600422511700,
  25615110774329881649380, 25616145761027126359140, 25619107459097254554000, 25620114375077190285150, 25621165220128616912270,
  25622172151600422511700, 25623101069159025196310, 25627143247882843550070, 25628095508134101525550, 25630081775077781007060,
  25632117727423317293770, 25633130407727723555350, 25634172151600422511700, 25635161165477535830630, 25637145761027126359140,
  25638122951791164230460, 25639125056298409388380, 25640154234005730231160, 25642133233397441405450, 25643145761027126359140,
  25644092534412262698070, 25645091737471328581250, 25646152692498931958590, 25647158288656811312820, 25648145761027126359140,
  25649128331334075772900, 25650154234005730231160, 25651161165477535830630, 25652106262335647176530, 25653172151600422511700,
  25654085521364026233950, 25655130407727723555350, 25656152692498931958590, 25657158288656811312820, 25658100073001708186970,
  25659172151600422511700, 25660161165477535830630, 25661122179477684870560, 25662158288656811312820, 25663126099898562630800,
  25665126200401921165820, 25666172151600422511700, 25667172151600422511700, 25668098280698065944150, 25669158288656811312820,
  25670088228500329816250, 25671093119332335204380, 25672128976719287148600, 25674104617221236533910, 25675152692498931958590]

def emitS9 : List Nat := [
  25676172151600422511700, 25680138139626605890160, 25681129384939232351160, 25682135262805881372350, 25683158288656811312820,
  25684094154067239639240, 25685172151600422511700, 25688101410432260538100, 25689165220128616912270, 25691172151600422511700,
  25692124193694966544310, 25693133439590313432820, 25694124193694966544310, 25695100312893271887200, 25696156057221298170710,
  25698126825605490979160, 25700154234005730231160, 25701138139626605890160, 25702152692498931958590, 25703119268930115566360,
  25705097085682621803300, 25708154234005730231160, 25709142707210630847300, 25711172151600422511700, 25712172151600422511700,
  25713145761027126359140, 25714165220128616912270, 25715114850602592775970, 25717145071098411489620, 25718133865186457620770,
  25719139570635042296890, 25720087918380664450040, 25721106555448047579290, 25722116778257752326360, 25723118728257902863610,
  25724172151600422511700, 25725141241175888928560, 25730114818187653534260, 25732140371062119032250, 25733114981323408449500,
  25735110992679167681380, 25736103378639707537430, 25744099666559698805610, 25745099666559698805610, 25746096618734366507530,
  25747109690532767696090, 25749103995200521768400, 25750158288656811312820, 25751161165477535830630, 25753172151600422511700,
  25754161165477535830630, 25758089795343222868610, 25759143247882843550070, 25763119681359700906850, 25764095312960619947430,
  25765095424021456086620, 25766172151600422511700, 25769111148410902311080, 25771099399877227984000, 25772109613312306756980,
  25773107599614789110500, 25774104205734613746730, 25775147302533924631700, 25776101418903247914610, 25777130255053002247450,
  25778087988927694248940, 25779126825605490979160, 25780114818187653534260, 25781112909042448366400, 25782114251998713539180,
  25783140796658263220230, 25784119473018831878440, 25785120793616052009100, 25786130104674228602060, 25787126099898562630800,
  25788120852613273280980, 25790126825605490979160, 25791101798914429700740, 25792124193694966544310, 25793094933682654336360,
  25794118872838734615910, 25796119840514253965850, 25797102885830090284460, 25799107004473513786420, 25802165220128616912270,
  25803092255995929173050, 25805090975492957849440, 25806120277742364104170, 25808149125749492571260, 25810099323988626455790,
  25812158288656811312820, 25814172151600422511700, 25815172151600422511700, 25816139193231762468430, 25818073416678872504450,
  25821154234005730231160, 25822124529861074534160, 25824094920399499848400, 25826117555745281070130, 25827161165477535830630,
  25828134539599265576090, 25830092660685424206550, 25836172151600422511700, 25837132261759956868980, 25839128976719287148600,
  25840107536918658974550, 25841172151600422511700, 25842094589646983030540, 25844096509215670806810, 25847140796658263220230,
  25850088228500329816250, 25851165220128616912270, 25852119473018831878440, 25853129666648002018120, 25854108979953555038880,
  25855140371062119032250, 25856104829493357839660, 25857156057221298170710, 25860158288656811312820, 25861172151600422511700,
  25862112909042448366400, 25865141706376045277480, 25871105752842084246360, 25874110227975527763000, 25876101598471989114200,
  25878140371062119032250, 25880118260883124346700, 25881113016570366129020, 25882172151600422511700, 25883130104674228602060,
  25884100073001708186970, 25885098280698065944150, 25888165220128616912270, 25890110227975527763000, 25891150179354649149520,
  25892104617221236533910, 25893114040190492744700, 25894165220128616912270, 25895145761027126359140, 25896158288656811312820,
  25897172151600422511700, 25898104593911202669170, 25899129524801652098560, 25900109016119959740760, 25901165220128616912270,
  25902143247882843550070, 25903087216449781895110, 25905144425713200113900, 25906143819466981949550, 25908165220128616912270,
  25909141706376045277480, 25910081990113996394310, 25912115418367750796790, 25913080788968736713040, 25914154234005730231160,
  25915085824976010288200, 25916146502106847896340, 25917147302533924631700, 25918075886784221695900, 25919090245283613476330,
  25920165220128616912270, 25921158288656811312820, 25922161165477535830630, 25923165220128616912270, 25924142194277686971800,
  25925080324992393817320, 25927147302533924631700, 25928105181257945846870, 25929139193231762468430, 25930128457121897841500,
  25931130562769588915000, 25932084188211094054390, 25934156057221298170710, 25935100013917341325300, 25937084719474387752600,
  25939117139018317064440, 25940154234005730231160, 25941104559047715874790, 25942120971662298344160, 25943091377128929199730,
  25944099809828625013230, 25945078082665312343105, 25946165220128616912270, 25947110434594448402560, 25948150179354649149520,
  25949104937343414605270, 25950115911425360638330, 25951145071098411489620, 25952154234005730231160, 25954082323478199070230,
  25955085785850938148530, 25956121589142369028630, 25957147302533924631700, 25958116778257752326360, 25959150179354649149520,
  25960165220128616912270, 25961149125749492571260, 25963136887995176350100, 25964099652345055331840, 25965154234005730231160,
  25966126825605490979160, 25967125056298409388380, 25968079381895879772255, 25969121462558400309400, 25970096472974367872890,
  25971151357185005713360, 25972097546697364258340, 25973084188211094054390, 25975107244365077486650, 25976135775738825247870,
  25977135262805881372350, 25978131898083515160230, 25979154234005730231160, 25980128584512155615800, 25982129110949490470010,
  25983172151600422511700, 25984154234005730231160, 25985122664001518730040, 25986119370453830206550, 25987109827120257006480,
  25991079797368899075250, 25995100139891589694920, 25996108435481950193150, 26000112829148548031610, 26001102807628323226140,
  26003117902100247697690, 26005117902100247697690, 26007084804390383063600, 26009092968953561558970, 26011121462558400309400,
  26012092628967335941250, 26013143247882843550070, 26015108215692883005400, 26016165220128616912270, 26017104138770077795500,
  26018172151600422511700, 26020106166510136366550, 26021110731226366638150, 26023103618609490650930, 26025094428284670815580,
  26027119681359700906850, 26028094428284670815580, 26029082567485730209520, 26031088915515999075990, 26032061702242359276220,
  26039082567485730209520, 26041077297670142233490, 26042117555745281070130, 26043134084975524808530, 26044056423066687010550,
  26045092576326400203990, 26046115180665557457670, 26047110839335527680300, 26048115661858040899650, 26049086472737365194160,
  26050120446760472130200, 26051126099898562630800, 26052130562769588915000, 26053093060378590397600, 26054127843432434078570,
  26055117684226705848620, 26056128084407949869180, 26057158288656811312820, 26059101418903247914610, 26060121337556772667100,
  26062134539599265576090, 26063086558656748163000, 26066135515983961215250, 26067121525650092242050, 26070138829555320759680,
  26071089979914464851020, 26075161165477535830630, 26080065654348805809890, 26081165220128616912270, 26082074732506853710990,
  26083172151600422511700, 26085059418251422654700, 26086112645174896634450, 26087084120363114219590, 26088092918118303210160,
  26089076381646929539160, 26090172151600422511700, 26092118776219625498540, 26093117858144132967300, 26094143819466981949550,
  26095142707210630847300, 26096138829555320759680, 26097105964210587339520, 26098156057221298170710, 26099161165477535830630,
  26102056655651929239320, 26103108925948023238880, 26104128457121897841500, 26105161165477535830630, 26106104375134486160550,
  26107132639163236697430, 26108158288656811312820, 26109172151600422511700, 26111172151600422511700, 26112135775738825247870,
  26114108316534073671650, 26115147302533924631700, 26116172151600422511700, 26117172151600422511700, 26118105687695274034410,
  26119118445220141235090, 26120165220128616912270, 26121126508118507833360, 26122126718652599811680, 26124110025539464996530,
  26125172151600422511700, 26126075272819933751740, 26127104758234148939980, 26128158288656811312820, 26129150179354649149520,
  26131086896019345033060, 26132110817619992545230, 26133124877722235388320, 26134141706376045277480, 26137113125267088498060,
  26138152692498931958590, 26139165220128616912270, 26140172151600422511700, 26141148172647694528020, 26142129524801652098560,
  26143088203604990490000, 26144107631110878139470, 26146126933714652021320, 26147158288656811312820, 26148172151600422511700,
  26149087486287656371630, 26151112749887895307400, 26152118260883124346700, 26153143819466981949550, 26154135775738825247870,
  26155141241175888928560, 26156154234005730231160, 26157104250628067372680, 26158172151600422511700, 26159036265613768888770,
  26160139570635042296890, 26161136316411037950620, 26164133031370368230260, 26165128584512155615800, 26166144425713200113900,
  26167172151600422511700, 26168161165477535830630, 26169172151600422511700, 26170140371062119032250, 26171172151600422511700,
  26172120222031913609620, 26174087870166676684440, 26175165220128616912270, 26177116468155384900740, 26178056655651929239320,
  26179098854103532096590, 26180172151600422511700, 26181165220128616912270, 26183161165477535830630, 26184161165477535830630,
  26185098808306919506350, 26186172151600422511700, 26187098808306919506350, 26188115947591765340210, 26190172151600422511700,
  26191113515288666530750, 26192172151600422511700, 26193172151600422511700, 26194099255495208000040, 26195109709931415874350,
  26196133233397441405450, 26197100427354651263270, 26198122384262998305960, 26199139193231762468430, 26202085455891704140520,
  26203161165477535830630, 26204172151600422511700, 26205120222031913609620, 26206130720253158596390, 26207132639163236697430,
  26208134774904239678030, 26209143247882843550070, 26210133031370368230260, 26211137186524807846900, 26212125707691431098000,
  26213142707210630847300, 26214116204486626493320, 26215156057221298170710, 26216110861098321906260, 26217118585737675791600,
  26218165220128616912270, 26219119019540632093840, 26220156057221298170710, 26222100043415887789510, 26223096243079185625910,
  26224142194277686971800, 26225147302533924631700, 26227143247882843550070, 26228103951436775770400, 26230108350375053514070,
  26231133865186457620770, 26232172151600422511700, 26233161165477535830630, 26234090957614526388790, 26235165220128616912270,
  26237144425713200113900, 26238116093579759551740, 26239165220128616912270, 26240125423312077892660, 26241152692498931958590,
  26242099666559698805610, 26243158288656811312820, 26244135262805881372350, 26245132639163236697430, 26246158288656811312820,
  26247114948482656437600, 26248172151600422511700, 26249122384262998305960, 26251165220128616912270, 26252137811728377660250,
  26253127043005357343200, 26254141241175888928560, 26256131208154800290710, 26257122664001518730040, 26258135015879755468640,
  26259172151600422511700, 26261172151600422511700, 26262085622129298573140, 26263090990416106418050, 26264128457121897841500,
  26265172151600422511700, 26266140371062119032250, 26268172151600422511700, 26269140796658263220230, 26271134084975524808530,
  26272135775738825247870, 26273142194277686971800, 26274106044639975334130, 26275132261759956868980, 26279139570635042296890,
  26280110795951511694320, 26281158288656811312820, 26282172151600422511700, 26283099666559698805610, 26284161165477535830630,
  26285156057221298170710, 26286105034196471949920, 26288172151600422511700, 26289128584512155615800, 26290126933714652021320,
  26292106058107990837910, 26293165220128616912270, 26294172151600422511700, 26296152692498931958590, 26297131721087744166210,
  26299154234005730231160, 26301172151600422511700, 26302138829555320759680, 26303161165477535830630, 26305165220128616912270,
  26306154234005730231160, 26307172151600422511700, 26308133233397441405450, 26309172151600422511700, 26310151357185005713360,
  26311113125267088498060, 26313109709931415874350, 26315172151600422511700, 26316149125749492571260, 26317161165477535830630,
  26318165220128616912270, 26319172151600422511700, 26321172151600422511700, 26323161165477535830630, 26324172151600422511700,
  26326139570635042296890, 26327148172647694528020, 26328131547170317047520, 26329113950771118988100, 26330122179477684870560,
  26331136316411037950620, 26332126404490637477900, 26333129666648002018120, 26334117990596400467510, 26335121525650092242050,
  26336108925948023238880, 26337125146796764587550, 26338132639163236697430, 26339172151600422511700, 26340165220128616912270,
  26341172151600422511700, 26342120852613273280980, 26343154234005730231160, 26344161165477535830630, 26345142194277686971800,
  26346125517209481391050, 26347165220128616912270, 26348099255495208000040, 26350165220128616912270, 26351149125749492571260]

def emitS10 : List Nat := [
  26352079395002041543465, 26353172151600422511700, 26354092576326400203990, 26355120561047430366430, 26356062735535814758965,
  26357172151600422511700, 26358141241175888928560, 26359132833344095268460, 26360073633342730389355, 26361095340610407148120,
  26362158288656811312820, 26363158288656811312820, 26364106784684446598670, 26366069364260681908805, 26367086432892895442390,
  26368062055881862082330, 26370158288656811312820, 26371057846275446523780, 26372154234005730231160, 26373172151600422511700,
  26374172151600422511700, 26375172151600422511700, 26376056050443476964430, 26377042582257069707890, 26378137494241394514450,
  26379115875389285605340, 26380172151600422511700, 26381088976380459640010, 26383156057221298170710, 26384134539599265576090,
  26386158288656811312820, 26387145071098411489620, 26388111444223142486830, 26389094269484844040950, 26391098710871916781060,
  26392151357185005713360, 26393154234005730231160, 26394165220128616912270, 26395078438920061687070, 26397076070507688012950,
  26398172151600422511700, 26399084081370863256950, 26400129810535376539120, 26401154234005730231160, 26403158288656811312820,
  26406138139626605890160, 26407127153503719209070, 26408084968235398003920, 26410074858473213732300, 26411086193405303797450,
  26412065648186792058490, 26413109536683579301290, 26414151357185005713360, 26415091689309411757950, 26416172151600422511700,
  26417083297191305435860, 26418165220128616912270, 26419172151600422511700, 26420116167380832527960, 26421099330863841577080,
  26422172151600422511700, 26423144425713200113900, 26424158288656811312820, 26425172151600422511700, 26426083705353588658700,
  26427161165477535830630, 26429123709729557925810, 26430145071098411489620, 26431172151600422511700, 26432074422368597361600,
  26433156057221298170710, 26434095377596117363640, 26435082949046273430800, 26436144425713200113900, 26437139193231762468430,
  26438099420674462516490, 26439161165477535830630, 26440100237307122147930, 26441106555448047579290, 26443165220128616912270,
  26444131547170317047520, 26445172151600422511700, 26446080483536722987170, 26447111467344540070620, 26448104455180653986700,
  26449081912697376527230, 26451122315534205428360, 26452161165477535830630, 26453172151600422511700, 26454096535182966623920,
  26456158288656811312820, 26457151357185005713360, 26458145761027126359140, 26459145761027126359140, 26460104877283174003160,
  26461172151600422511700, 26462110372159282005720, 26463103347759600651670, 26464121462558400309400, 26465077750580666592040,
  26466161165477535830630, 26468172151600422511700, 26469052228934286750290, 26470172151600422511700, 26471143819466981949550,
  26472074945742147740635, 26473090532142427824800, 26474145071098411489620, 26475165220128616912270, 26476115697131446079350,
  26477100613262406723300, 26478165220128616912270, 26479093160065589080730, 26480107397273255470810, 26481074016519033345670,
  26482133031370368230260, 26483132639163236697430, 26484165220128616912270, 26485113016570366129020, 26487142194277686971800,
  26488148172647694528020, 26489158288656811312820, 26490172151600422511700, 26491156057221298170710, 26492140371062119032250,
  26493125517209481391050, 26494089950260850993120, 26495086882145593922560, 26497075786373205781030, 26498136042421296069470,
  26499114130416668741100, 26500105687695274034410, 26501154234005730231160, 26502151357185005713360, 26503131208154800290710,
  26504131208154800290710, 26505107123699963355480, 26506172151600422511700, 26507128207108875787320, 26508121275637070187870,
  26511149125749492571260, 26512104758234148939980, 26514130104674228602060, 26515156057221298170710, 26517104478169169857800,
  26518165220128616912270, 26519081578543064440510, 26520145071098411489620, 26522092242445791598460, 26523172151600422511700,
  26524088073353878903000, 26525099337743786808890, 26526148172647694528020, 26527122247274554724350, 26528149125749492571260,
  26529125901872289669000, 26530107428137477502700, 26531111148410902311080, 26532172151600422511700, 26533142707210630847300,
  26534165220128616912270, 26535151357185005713360, 26536148172647694528020, 26537129110949490470010, 26538086243447109643210,
  26539118215324958988100, 26540129384939232351160, 26541108435481950193150, 26543102836882366517180, 26544120503740683276580,
  26545172151600422511700, 26546151357185005713360, 26547135262805881372350, 26548161165477535830630, 26549149125749492571260,
  26550083124323782156480, 26551112112729751446330, 26552148172647694528020, 26553139193231762468430, 26554165220128616912270,
  26555158288656811312820, 26556146502106847896340, 26557172151600422511700, 26558139962842173829710, 26559165220128616912270,
  26560165220128616912270, 26561158288656811312820, 26563172151600422511700, 26564091321401230798430, 26567127963194344545740,
  26568172151600422511700, 26569128207108875787320, 26570123098852638127420, 26571165220128616912270, 26572161165477535830630,
  26573161165477535830630, 26575114344165264588420, 26576081739486332829610, 26577113290560108010170, 26578165220128616912270,
  26579101401968442851280, 26580098569662895181400, 26581150179354649149520, 26582172151600422511700, 26583152692498931958590,
  26584132833344095268460, 26585136887995176350100, 26586128207108875787320, 26588107168778927747380, 26589147302533924631700,
  26590134774904239678030, 26591109906016129758120, 26592151357185005713360, 26593172151600422511700, 26594130104674228602060,
  26595151357185005713360, 26596145761027126359140, 26597090710615789126480, 26598141706376045277480, 26599152692498931958590,
  26600145071098411489620, 26601120111533551743770, 26604108198984441357220, 26605145761027126359140, 26606161165477535830630,
  26607115768053729174250, 26608147302533924631700, 26609097381215699314760, 26610156057221298170710, 26611093931160340655530,
  26612098237448075758140, 26613172151600422511700, 26614172151600422511700, 26615148172647694528020, 26616165220128616912270,
  26619143247882843550070, 26620152692498931958590, 26621148172647694528020, 26623117098285063188090, 26624143247882843550070,
  26625172151600422511700, 26626172151600422511700, 26627172151600422511700, 26628161165477535830630, 26629116977071457864630,
  26631096288637350984500, 26632120852613273280980, 26633124529861074534160, 26634130880256572060800, 26635115384062399828900,
  26636142194277686971800, 26638110624273475470680, 26639106166510136366550, 26640172151600422511700, 26641085997518033379790,
  26642165220128616912270, 26643121525650092242050, 26644165220128616912270, 26645165220128616912270, 26646106872021246286210,
  26647117555745281070130, 26648161165477535830630, 26649172151600422511700, 26651165220128616912270, 26653154234005730231160,
  26655152692498931958590, 26657092961675540859260, 26660151357185005713360, 26661134084975524808530, 26662111749053309737580,
  26663110392927721454100, 26664115281846859113520, 26665139193231762468430, 26666105431270967901050, 26667112515806986327260,
  26668118585737675791600, 26669121092145683505910, 26670172151600422511700, 26672161165477535830630, 26673137811728377660250,
  26674130562769588915000, 26675165220128616912270, 26676165220128616912270, 26677123476255917955900, 26678165220128616912270,
  26679094658375775908170, 26680088654392047786830, 26681086186012954541940, 26683142707210630847300, 26684088635492916246130,
  26685104805683822782230, 26686145071098411489620, 26687165220128616912270, 26688127265236725190330, 26689127843432434078570,
  26690101887332335515360, 26691099059476765584090, 26692165220128616912270, 26693120618684477533920, 26694115147164688604850,
  26696092371919491226230, 26697135775738825247870, 26698172151600422511700, 26700103419962080386530, 26702161165477535830630,
  26704120333764919590870, 26705105635881686614450, 26707110146508682084800, 26708122664001518730040, 26709145761027126359140,
  26714154234005730231160, 26716145761027126359140, 26719161165477535830630, 26720129810535376539120, 26721124702279138879210,
  26722140371062119032250, 26723095969089443744760, 26724130880256572060800, 26725081674562537525460, 26726111654265870192140,
  26727132639163236697430, 26728109671171677427420, 26729105897676742432160, 26731172151600422511700, 26733172151600422511700,
  26735165220128616912270, 26736165220128616912270, 26737158288656811312820, 26738156057221298170710, 26740138478642122646980,
  26741131898083515160230, 26742106359088302410710, 26743148172647694528020, 26744156057221298170710, 26745161165477535830630,
  26746147302533924631700, 26747172151600422511700, 26748165220128616912270, 26749165220128616912270, 26750146502106847896340,
  26751172151600422511700, 26752172151600422511700, 26753095837283776742660, 26755135515983961215250, 26756172151600422511700,
  26757099275994019414480, 26758125804310540215360, 26759154234005730231160, 26760154234005730231160, 26761154234005730231160,
  26762161165477535830630, 26764141706376045277480, 26765104734593475991180, 26766165220128616912270, 26767158288656811312820,
  26769149125749492571260, 26770172151600422511700, 26771111103668098361870, 26772143247882843550070, 26773133439590313432820,
  26774136316411037950620, 26775108607900014538220, 26776143819466981949550, 26777165220128616912270, 26779172151600422511700,
  26780165220128616912270, 26781165220128616912270, 26783108435481950193150, 26784165220128616912270, 26785150179354649149520,
  26786102500796966497650, 26787152692498931958590, 26788158288656811312820, 26789172151600422511700, 26790089939499483261010,
  26791126718652599811680, 26792102030447479447930, 26793129524801652098560, 26794161165477535830630, 26795165220128616912270,
  26796172151600422511700, 26797109385165529095280, 26798142707210630847300, 26799106498950722158110, 26800105610075220679530,
  26802148172647694528020, 26803110085841155262440, 26804125611996920936480, 26805117139018317064440, 26806140371062119032250,
  26807135015879755468640, 26809172151600422511700, 26810135262805881372350, 26812161165477535830630, 26813132078268570187000,
  26814121214098414444100, 26815143819466981949550, 26816107366504000426030, 26817137494241394514450, 26818110688307845822750,
  26820161165477535830630, 26821154234005730231160, 26822145761027126359140, 26823147302533924631700, 26824172151600422511700,
  26825097483605672325700, 26826161165477535830630, 26827101410432260538100, 26828138829555320759680, 26829101418903247914610,
  26831165220128616912270, 26832143819466981949550, 26833161165477535830630, 26834094158166440352510, 26835140796658263220230,
  26836135775738825247870, 26837111126014476376030, 26838156057221298170710, 26839111148410902311080, 26840110005519438289800,
  26841141706376045277480, 26842105713703091035000, 26843161165477535830630, 26844149125749492571260, 26845133031370368230260,
  26847115384062399828900, 26848116130412213714710, 26849161165477535830630, 26851091711756110296180, 26852113832775649676550,
  26853154234005730231160, 26854129956523370750650, 26855120852613273280980, 26856147302533924631700, 26857114160673877906460,
  26858148172647694528020, 26859141241175888928560, 26860125901872289669000, 26861131042861780778600, 26862105950868357208150,
  26863141706376045277480, 26864108265986367055420, 26865104072250985512460, 26866165220128616912270, 26867158288656811312820,
  26868148172647694528020, 26869104985652687301930, 26870114657670563429170, 26871156057221298170710, 26872161165477535830630,
  26873129956523370750650, 26874097063728716168940, 26875136316411037950620, 26876156057221298170710, 26877146502106847896340,
  26878172151600422511700, 26879121152936144269730, 26880156057221298170710, 26881111725272085687900, 26882109162107953952280,
  26883140796658263220230, 26884165220128616912270, 26885105418620744835180, 26886136042421296069470, 26887147302533924631700,
  26888119628866142045420, 26889172151600422511700, 26890165220128616912270, 26891111892940684258570, 26893108872232585219760,
  26894111352268471555800, 26895129810535376539120, 26896141706376045277480, 26897172151600422511700, 26898104466668306025420,
  26899143819466981949550, 26900161165477535830630, 26901172151600422511700, 26902165220128616912270, 26903165220128616912270,
  26904172151600422511700, 26905161165477535830630, 26906158288656811312820, 26907161165477535830630, 26908161165477535830630,
  26909165220128616912270, 26910161165477535830630, 26911122664001518730040, 26912172151600422511700, 26913165220128616912270,
  26916113207572079863200, 26917165220128616912270, 26918148172647694528020, 26919165220128616912270, 26920172151600422511700,
  26921158288656811312820, 26922172151600422511700, 26923165220128616912270, 26925125707691431098000, 26926172151600422511700]

def emitS11 : List Nat := [
  26927152692498931958590, 26928129956523370750650, 26932128207108875787320, 26933172151600422511700, 26935172151600422511700,
  26936161165477535830630, 26937115911425360638330, 26938165220128616912270, 26939142194277686971800, 26940128976719287148600,
  26941126301925635806000, 26942112464524822658060, 26943117598389268934700, 26944108677708325951610, 26945110351433885985980,
  26946113152626886686800, 26947116093579759551740, 26948117303631087605160, 26949123631297783315550, 26950161165477535830630,
  26951165220128616912270, 26953172151600422511700, 26954074945742147740635, 26955117902100247697690, 26956172151600422511700,
  26958172151600422511700, 26959165220128616912270, 26960158288656811312820, 26962158288656811312820, 26963118215324958988100,
  26964126933714652021320, 26965172151600422511700, 26966150179354649149520, 26967123709729557925810, 26968136316411037950620,
  26969130104674228602060, 26970087570801153274400, 26972156057221298170710, 26973118124826603788920, 26974106331349033583450,
  26975165220128616912270, 26976116093579759551740, 26977154234005730231160, 26978156057221298170710, 26979131547170317047520,
  26980172151600422511700, 26982131208154800290710, 26984140371062119032250, 26985161165477535830630, 26986156057221298170710,
  26987135515983961215250, 26988165220128616912270, 26989172151600422511700, 26990143247882843550070, 26991138829555320759680,
  26992161165477535830630, 26993165220128616912270, 26996172151600422511700, 26997172151600422511700, 26999125901872289669000,
  27000128331334075772900, 27001112962661879780250, 27002172151600422511700, 27004084756236196914930, 27005161165477535830630,
  27007154234005730231160, 27008158288656811312820, 27010111421155081507660, 27012124111389975179150, 27013161165477535830630,
  27014119068923448499660, 27015136887995176350100, 27016130104674228602060, 27017138829555320759680, 27020154234005730231160,
  27021145071098411489620, 27025161165477535830630, 27028133650124405411130, 27029132078268570187000, 27030135262805881372350,
  27031165220128616912270, 27032115047330248763020, 27034172151600422511700, 27035117139018317064440, 27036096718866955457270,
  27039172151600422511700, 27043165220128616912270, 27044158288656811312820, 27045172151600422511700, 27046172151600422511700,
  27047126612831506506300, 27048112989579796437360, 27049172151600422511700, 27050172151600422511700, 27051124276682994691260,
  27052165220128616912270, 27053116506396349284780, 27054101167844036603840, 27055172151600422511700, 27057147302533924631700,
  27059165220128616912270, 27060120852613273280980, 27062172151600422511700, 27063114785877447719800, 27064147302533924631700,
  27065172151600422511700, 27067106945389146924760, 27068161165477535830630, 27070142707210630847300, 27071130880256572060800,
  27072154234005730231160, 27073138829555320759680, 27074172151600422511700, 27075119734130271915300, 27077147302533924631700,
  27079172151600422511700, 27080124966611709560770, 27082127265236725190330, 27083105687695274034410, 27084115487333541387400,
  27085086243447109643210, 27086108801057907531130, 27088116093579759551740, 27089119118551341920970, 27090143247882843550070,
  27091121462558400309400, 27092137186524807846900, 27094172151600422511700, 27095138139626605890160, 27096145761027126359140,
  27097154234005730231160, 27098161165477535830630, 27099120333764919590870, 27100154234005730231160, 27101121717349253319260,
  27102165220128616912270, 27103140371062119032250, 27104143819466981949550, 27105172151600422511700, 27106136887995176350100,
  27107172151600422511700, 27108143819466981949550, 27109165220128616912270, 27110107838289603176940, 27111172151600422511700,
  27112111725272085687900, 27113165220128616912270, 27116138478642122646980, 27117122735176196418670, 27118147302533924631700,
  27119149125749492571260, 27120147302533924631700, 27121152692498931958590, 27122134309704083329110, 27123109671171677427420,
  27124161165477535830630, 27126161165477535830630, 27127165220128616912270, 27128090080308741798460, 27129165220128616912270,
  27130152692498931958590, 27131131721087744166210, 27132130880256572060800, 27133098005871609005820, 27134122523154119912640,
  27135133439590313432820, 27136131898083515160230, 27137105897676742432160, 27138090080308741798460, 27139148172647694528020,
  27140165220128616912270, 27141148172647694528020, 27142137186524807846900, 27143161165477535830630, 27145131208154800290710,
  27146115147164688604850, 27147130880256572060800, 27151161165477535830630, 27152151357185005713360, 27153165220128616912270,
  27155084756236196914930, 27156172151600422511700, 27157172151600422511700, 27159131042861780778600, 27160129956523370750650,
  27161096288637350984500, 27162158288656811312820, 27165172151600422511700, 27166107428137477502700, 27167117902100247697690,
  27168172151600422511700, 27169102624313976263030, 27171094658375775908170, 27176172151600422511700, 27178088439179063192380,
  27179158288656811312820, 27183132261759956868980, 27185113980488822879680, 27186172151600422511700, 27189115556778264915500,
  27191132833344095268460, 27192126825605490979160, 27193085997518033379790, 27194107078823298661600, 27195103951436775770400,
  27196111283853153388640, 27197128207108875787320, 27198134774904239678030, 27199116738964970927450, 27200122951791164230460,
  27201161165477535830630, 27202172151600422511700, 27204138478642122646980, 27206161165477535830630, 27207125330288151269520,
  27208124702279138879210, 27211172151600422511700, 27212172151600422511700, 27215158288656811312820, 27216121847221208587350,
  27217158288656811312820, 27219140371062119032250, 27220161165477535830630, 27222172151600422511700, 27223172151600422511700,
  27224123709729557925810, 27225110227975527763000, 27226152692498931958590, 27227132639163236697430, 27228158288656811312820,
  27230161165477535830630, 27231083705353588658700, 27233133233397441405450, 27234125707691431098000, 27237150179354649149520,
  27238139570635042296890, 27240172151600422511700, 27241172151600422511700, 27242158288656811312820, 27243161165477535830630,
  27246165220128616912270, 27247136042421296069470, 27249112464524822658060, 27251161165477535830630, 27255143819466981949550,
  27256142194277686971800, 27257116699825977716100, 27260147302533924631700, 27262165220128616912270, 27263172151600422511700,
  27264108066312511916730, 27265172151600422511700, 27268119019540632093840, 27269165220128616912270, 27271151357185005713360,
  27272140796658263220230, 27273148172647694528020, 27277172151600422511700, 27278151357185005713360, 27280099255495208000040,
  27281172151600422511700, 27282148172647694528020, 27283172151600422511700, 27284095969089443744760, 27285172151600422511700,
  27287156057221298170710, 27288161165477535830630, 27289172151600422511700, 27292132639163236697430, 27293165220128616912270,
  27294142707210630847300, 27295161165477535830630, 27296142707210630847300, 27298165220128616912270, 27299132261759956868980,
  27303172151600422511700, 27305154234005730231160, 27306151357185005713360, 27307141706376045277480, 27308124702279138879210,
  27309140796658263220230, 27310161165477535830630, 27311134539599265576090, 27312145761027126359140, 27314110731226366638150,
  27315140371062119032250, 27317151357185005713360, 27318142707210630847300, 27319140371062119032250, 27320151357185005713360,
  27321152692498931958590, 27322143819466981949550, 27323120333764919590870, 27324156057221298170710, 27325147302533924631700,
  27326152692498931958590, 27327146502106847896340, 27328158288656811312820, 27329150179354649149520, 27331134084975524808530,
  27332128331334075772900, 27333165220128616912270, 27334145071098411489620, 27336150179354649149520, 27337120277742364104170,
  27339156057221298170710, 27340132639163236697430, 27342131547170317047520, 27344161165477535830630, 27346138829555320759680,
  27347135015879755468640, 27348151357185005713360, 27349147302533924631700, 27350161165477535830630, 27352112515806986327260,
  27353115947591765340210, 27354152692498931958590, 27355172151600422511700, 27357122664001518730040, 27358147302533924631700,
  27359110624273475470680, 27360139570635042296890, 27361145761027126359140, 27363172151600422511700, 27364140796658263220230,
  27365112464524822658060, 27366151357185005713360, 27367143819466981949550, 27368142194277686971800, 27370142707210630847300,
  27371150179354649149520, 27372136887995176350100, 27376172151600422511700, 27379130880256572060800, 27382158288656811312820,
  27384138829555320759680, 27385165220128616912270, 27386172151600422511700, 27387172151600422511700, 27393172151600422511700,
  27394172151600422511700, 27395172151600422511700, 27396106166510136366550, 27398165220128616912270, 27399172151600422511700,
  27401158288656811312820, 27402161165477535830630, 27403161165477535830630, 27404135775738825247870, 27405130880256572060800,
  27406102885830090284460, 27407113207572079863200, 27408106640797072077670, 27409113125267088498060, 27410112802658466315840,
  27411117470999011160400, 27412158288656811312820, 27414124111389975179150, 27417113687212671934470, 27424098588801657004230,
  27425074199817932218950, 27426100754997062862510, 27427113572268877677120, 27428121214098414444100, 27429172151600422511700,
  27431094581089002191570, 27437172151600422511700, 27442085253589862286200, 27445172151600422511700, 27447142707210630847300,
  27448161165477535830630, 27449139193231762468430, 27450103174550991225370, 27451158288656811312820, 27453100335680976393070,
  27454098114897522387970, 27456158288656811312820, 27458158288656811312820, 27459161165477535830630, 27461172151600422511700,
  27462128844267019648410, 27463093666165597944920, 27465114313348599214350, 27467135515983961215250, 27468091958762493343790,
  27469150179354649149520, 27472094581089002191570, 27475172151600422511700, 27476119894133685379700, 27480165220128616912270,
  27481130880256572060800, 27482172151600422511700, 27484148172647694528020, 27487121214098414444100, 27488161165477535830630,
  27489100754997062862510, 27490091455047353650070, 27491066760749759951095, 27492065702352700273480, 27493088522842112192920,
  27494086507016583678200, 27495123553476378895000, 27497161165477535830630, 27498100818640873551040, 27501161165477535830630,
  27504161165477535830630, 27506078461933069925700, 27507165220128616912270, 27509172151600422511700, 27511158288656811312820,
  27512083196674107995400, 27513126612831506506300, 27515069067742088897810, 27516105977570642766940, 27519125804310540215360,
  27521125804310540215360, 27522147302533924631700, 27523131042861780778600, 27524141241175888928560, 27526131376225983454520,
  27527136598119807617580, 27529115014272367418030, 27530108765659640479900, 27531099773818503277300, 27532138829555320759680,
  27533172151600422511700, 27535138478642122646980, 27537084512630351117120, 27538134774904239678030, 27539124702279138879210,
  27540161165477535830630, 27541145071098411489620, 27542110603019482347540, 27543139193231762468430, 27544099773818503277300,
  27546143819466981949550, 27547140796658263220230, 27548172151600422511700, 27549165220128616912270, 27550134774904239678030,
  27552161165477535830630, 27553135262805881372350, 27554133865186457620770, 27555135515983961215250, 27556165220128616912270,
  27558156057221298170710, 27559144425713200113900, 27560161165477535830630, 27561149125749492571260, 27562158288656811312820,
  27563143819466981949550, 27564158288656811312820, 27565148172647694528020, 27566124702279138879210, 27567135262805881372350,
  27568148172647694528020, 27570105977570642766940, 27571133439590313432820, 27572121462558400309400, 27573071548824389508550,
  27575107490153180135510, 27578074422368597361600, 27579161165477535830630, 27580095759988705919990, 27581156057221298170710,
  27582172151600422511700, 27583084346799352178760, 27584156057221298170710, 27585091968639037356500, 27586128207108875787320,
  27589109768354172116640, 27590121462558400309400, 27591172151600422511700, 27594126404490637477900, 27595117858144132967300,
  27596158288656811312820, 27597092171607242714400, 27598152692498931958590, 27599070474637734489045, 27600134309704083329110,
  27601172151600422511700, 27602088356210161337290, 27603122384262998305960, 27604067433801663007245, 27605091414454011413150,
  27606135262805881372350, 27607113070771040822410, 27608161165477535830630, 27609109827120257006480, 27610140796658263220230,
  27611082593248980322130, 27613165220128616912270, 27614152692498931958590, 27617109866490386599890, 27618172151600422511700,
  27620165220128616912270, 27622124529861074534160, 27623172151600422511700, 27626158288656811312820, 27627112038928678470100]

def emitS12 : List Nat := [
  27628136598119807617580, 27631121782074398375430, 27633172151600422511700, 27635152692498931958590, 27637140796658263220230,
  27641161165477535830630, 27645149125749492571260, 27647140796658263220230, 27650161165477535830630, 27653133439590313432820,
  27655165220128616912270, 27656109866490386599890, 27658172151600422511700, 27660165220128616912270, 27661158288656811312820,
  27663093619436540951000, 27664111749053309737580, 27665084142927997806930, 27667139193231762468430, 27668074267466975605085,
  27669154234005730231160, 27670109273014820893870, 27672129810535376539120, 27673133865186457620770, 27674132639163236697430,
  27675127043005357343200, 27676161165477535830630, 27679110351433885985980, 27681129110949490470010, 27682102964648232307000,
  27683103671547676748080, 27684136887995176350100, 27685131898083515160230, 27686113430422527757560, 27687100305308895338570,
  27688092889185190802100, 27689124966611709560770, 27690127843432434078570, 27691114499689394663270, 27692107758096711510730,
  27693113950771118988100, 27694107063909052794900, 27695109945698721514320, 27696131547170317047520, 27697116506396349284780,
  27698120793616052009100, 27699120793616052009100, 27700071163524471354330, 27701141241175888928560, 27702125611996920936480,
  27703172151600422511700, 27704097358604044683390, 27705128713546203974880, 27706172151600422511700, 27708165220128616912270,
  27709116468155384900740, 27710118970400484069550, 27711161165477535830630, 27712114100250733346830, 27713105070759583981030,
  27714084410017510452140, 27718144425713200113900, 27719100963337931890940, 27720161165477535830630, 27721081189967153373890,
  27722112490133031274800, 27723161165477535830630, 27725172151600422511700, 27726165220128616912270, 27727172151600422511700,
  27728156057221298170710, 27732156057221298170710, 27733129666648002018120, 27735088548546063720800, 27737152692498931958590,
  27739127043005357343200, 27740127492519235965890, 27741101342921455603900, 27742104711008559398240, 27743085019067679304660,
  27744100574245580012660, 27745111892940684258570, 27746172151600422511700, 27748088966617217468350, 27751147302533924631700,
  27752140371062119032250, 27753154234005730231160, 27754100312893271887200, 27755172151600422511700, 27756172151600422511700,
  27757149125749492571260, 27758172151600422511700, 27759172151600422511700, 27760132261759956868980, 27762124529861074534160,
  27763161165477535830630, 27764115113775675949710, 27765112802658466315840, 27766128584512155615800, 27767140371062119032250,
  27768165220128616912270, 27769148172647694528020, 27770087837426278563380, 27771125056298409388380, 27773121031722538946290,
  27774125517209481391050, 27775165220128616912270, 27777114100250733346830, 27778121847221208587350, 27779120561047430366430,
  27780172151600422511700, 27781114130416668741100, 27782172151600422511700, 27783172151600422511700, 27784100013917341325300,
  27785094331868078167870, 27787165220128616912270, 27788151357185005713360, 27789172151600422511700, 27791121462558400309400,
  27792104205734613746730, 27793161165477535830630, 27794063483645930778320, 27795120390103096773430, 27796098474514698768000,
  27797172151600422511700, 27798145071098411489620, 27800161165477535830630, 27801092317199792446300, 27802148172647694528020,
  27803124615698511448070, 27804165220128616912270, 27806165220128616912270, 27807094394642923359250, 27808172151600422511700,
  27809063483645930778320, 27811123248109140294190, 27812126508118507833360, 27813125611996920936480, 27814122523154119912640,
  27815120618684477533920, 27816158288656811312820, 27817154234005730231160, 27818094572538338994240, 27819116817705535236520,
  27820154234005730231160, 27821136887995176350100, 27822119370453830206550, 27824165220128616912270, 27825126508118507833360,
  27826172151600422511700, 27827077918072661602370, 27829158288656811312820, 27831172151600422511700, 27832117641215886854710,
  27833085730978687890640, 27835082925017427267700, 27836120277742364104170, 27837110817619992545230, 27838102846652762995450,
  27839090966549746640750, 27841113097981941966000, 27843149125749492571260, 27844102866222240865050, 27845143247882843550070,
  27846172151600422511700, 27847161165477535830630, 27849098330356765136600, 27850103388954303604060, 27851165220128616912270,
  27852122523154119912640, 27856152692498931958590, 27857165220128616912270, 27858148172647694528020, 27859127608127459976630,
  27860148172647694528020, 27861071563367980060760, 27862149125749492571260, 27863120333764919590870, 27865172151600422511700,
  27866130255053002247450, 27867101843025661350500, 27869161165477535830630, 27870165220128616912270, 27871135515983961215250,
  27872131208154800290710, 27873094542668464001490, 27874089883191518425940, 27875113803493051885670, 27876149125749492571260,
  27877088363098004566790, 27878124966611709560770, 27879137494241394514450, 27880092706678783190120, 27881161165477535830630,
  27882096293712205191380, 27883139193231762468430, 27884165220128616912270, 27885141706376045277480, 27886145761027126359140,
  27887127265236725190330, 27888100312893271887200, 27889149125749492571260, 27890138829555320759680, 27891123476255917955900,
  27892161165477535830630, 27893114753671300719380, 27894139193231762468430, 27895139193231762468430, 27896136316411037950620,
  27897172151600422511700, 27898137186524807846900, 27899110497421880197510, 27900103875308077483200, 27901107459097254554000,
  27902119268930115566360, 27904145071098411489620, 27905113262820839182900, 27906165220128616912270, 27907145071098411489620,
  27908116020319358631010, 27909158288656811312820, 27911146502106847896340, 27912149125749492571260, 27913161165477535830630,
  27914140796658263220230, 27915098163737668312230, 27916123476255917955900, 27917165220128616912270, 27918161165477535830630,
  27919137494241394514450, 27921145071098411489620, 27922102778459610274900, 27923120734964857485120, 27925172151600422511700,
  27926118398816345670070, 27927091436291486945120, 27928161165477535830630, 27929149125749492571260, 27930172151600422511700,
  27931102500796966497650, 27932126508118507833360, 27934083695267859109850, 27935115147164688604850, 27937165220128616912270,
  27939154234005730231160, 27940165220128616912270, 27941096344602900266080, 27942136316411037950620, 27943145071098411489620,
  27944151357185005713360, 27945102866222240865050, 27946096905988159658120, 27947158288656811312820, 27949165220128616912270,
  27950129110949490470010, 27951161165477535830630, 27952125423312077892660, 27953142194277686971800, 27954091670109405859700,
  27955133439590313432820, 27956150179354649149520, 27957140796658263220230, 27958147302533924631700, 27959172151600422511700,
  27960131547170317047520, 27961120971662298344160, 27962109366386180853270, 27963082279632215892000, 27964121847221208587350,
  27965124789615938566760, 27966072230665513810190, 27967116857309547397480, 27969080499216441874090, 27970151357185005713360,
  27971116093579759551740, 27972143819466981949550, 27973092600857689884750, 27974101317721946258760, 27975108099315842203300,
  27976145761027126359140, 27977122593329846499100, 27978113832775649676550, 27979095735956009901990, 27980172151600422511700,
  27981139962842173829710, 27982095929854474335500, 27983133865186457620770, 27984117386964903196610, 27985104913276014299640,
  27986137811728377660250, 27987096724164968826220, 27988126825605490979160, 27989172151600422511700, 27991118728257902863610,
  27992127265236725190330, 27993106289883873964970, 27994116354302162649500, 27995148172647694528020, 27996083521102143320800,
  27998127378232277729650, 28000087841785476540000, 28001130880256572060800, 28003093847344244308400, 28005161165477535830630,
  28006113832775649676550, 28009103576459797057810, 28010101546836762513700, 28012165220128616912270, 28014099752274509307030,
  28015135775738825247870, 28016161165477535830630, 28017172151600422511700, 28020113097981941966000, 28023080377561705212540,
  28024108712796081248400, 28025116093579759551740, 28028103597512436412430, 28034099365310999304900, 28037107397273255470810,
  28039119268930115566360, 28040097927863412643480, 28041105230762997445440, 28044095103481193185790, 28046120676655654377180,
  28049121717349253319260, 28050144425713200113900, 28051077456914052412690, 28052091708546352605320, 28053127378232277729650,
  28054127963194344545740, 28055114531086594709950, 28056106712481966863800, 28057115947591765340210, 28058118035139903961320,
  28059110372159282005720, 28060120911960628479140, 28061121031722538946290, 28062116167380832527960, 28063112671250530705260,
  28064131208154800290710, 28065118728257902863610, 28066116279113838509220, 28067120911960628479140, 28068124276682994691260,
  28070097826762343340530, 28071114282626608844640, 28072095702406972923150, 28073114437189191211570, 28074129956523370750650,
  28075130407727723555350, 28076172151600422511700, 28078124702279138879210, 28079123948784766461340, 28082097951801185893360,
  28083120793616052009100, 28084172151600422511700, 28085114313348599214350, 28086172151600422511700, 28088126825605490979160,
  28092098237448075758140, 28093165220128616912270, 28095125423312077892660, 28096124444754177855060, 28098172151600422511700,
  28100131208154800290710, 28101131208154800290710, 28102147302533924631700, 28103111467344540070620, 28105158288656811312820,
  28107110603019482347540, 28108112337458309966900, 28111161165477535830630, 28113100350901679483750, 28114165220128616912270,
  28118112541547026278990, 28120111059124594868060, 28121124702279138879210, 28122096293712205191380, 28123158288656811312820,
  28124172151600422511700, 28125123631297783315550, 28126118352626887107120, 28128131376225983454520, 28129099351517893669840,
  28132112112729751446330, 28133120561047430366430, 28134127608127459976630, 28136096385502752781330, 28138122523154119912640,
  28139109632561590852830, 28140123173202423002600, 28142100412017224943780, 28143131376225983454520, 28145079422205285184690,
  28147115047330248763020, 28149172151600422511700, 28150116167380832527960, 28151092489202656917050, 28152144425713200113900,
  28153116316637334694730, 28154092600857689884750, 28155099730776829942100, 28156122247274554724350, 28158161165477535830630,
  28159172151600422511700, 28162172151600422511700, 28165074441187570153495, 28166146502106847896340, 28168131042861780778600,
  28170111941366929016460, 28172120561047430366430, 28173122247274554724350, 28174117139018317064440, 28176088429926228851910,
  28177140796658263220230, 28180105355608564067900, 28181172151600422511700, 28182135262805881372350, 28183112541547026278990,
  28184140371062119032250, 28185120911960628479140, 28186113862144246409650, 28187172151600422511700, 28189103316974558380790,
  28190165220128616912270, 28191161165477535830630, 28192103756836040223300, 28193095702406972923150, 28194158288656811312820,
  28195111965668277549370, 28196117641215886854710, 28197118491840272293200, 28198118728257902863610, 28201092788573490492110,
  28203141706376045277480, 28204158288656811312820, 28205118970400484069550, 28206158288656811312820, 28207086297476118577910,
  28208144425713200113900, 28210122806861091204790, 28211165220128616912270, 28212109886233729637070, 28214119421604836874260,
  28215146502106847896340, 28216083233734063938570, 28217165220128616912270, 28218126099898562630800, 28220152692498931958590,
  28222104913276014299640, 28223145761027126359140, 28224124276682994691260, 28225098084493120735310, 28227131547170317047520,
  28228139570635042296890, 28229109107112398291900, 28230172151600422511700, 28231129956523370750650, 28232165220128616912270,
  28233136042421296069470, 28234099737937589288550, 28235172151600422511700, 28236172151600422511700, 28237119068923448499660,
  28238130255053002247450, 28240165220128616912270, 28241161165477535830630, 28243134084975524808530, 28244139962842173829710,
  28245145761027126359140, 28246077843998248823750, 28247112515806986327260, 28248089782099941897170, 28251130720253158596390,
  28252125517209481391050, 28253140796658263220230, 28254145761027126359140, 28255126933714652021320, 28256165220128616912270,
  28257112088068826494390, 28258165220128616912270, 28259141706376045277480, 28261165220128616912270, 28262158288656811312820,
  28263095103481193185790, 28264148172647694528020, 28266098262139446327340, 28267128084407949869180, 28268161165477535830630,
  28269133233397441405450, 28270129956523370750650, 28271152692498931958590, 28272119019540632093840, 28273172151600422511700,
  28274154234005730231160, 28275136887995176350100, 28276101159582986980790, 28277117220985989106230, 28278132639163236697430]

def emitS13 : List Nat := [
  28280165220128616912270, 28281139193231762468430, 28282172151600422511700, 28283154234005730231160, 28284150179354649149520,
  28286095993689702153400, 28287095993689702153400, 28288116817705535236520, 28290114721568544416890, 28291110392927721454100,
  28292151357185005713360, 28293108000630830795770, 28294131208154800290710, 28295152692498931958590, 28296154234005730231160,
  28297135262805881372350, 28301131898083515160230, 28302165220128616912270, 28303131547170317047520, 28304089151283304715960,
  28305172151600422511700, 28306172151600422511700, 28310145761027126359140, 28312154234005730231160, 28314172151600422511700,
  28316097437969540640740, 28317172151600422511700, 28318143819466981949550, 28319139193231762468430, 28322115556778264915500,
  28325132448681286990500, 28327140371062119032250, 28330100184734714168220, 28331092788573490492110, 28335114625874034255400,
  28337161165477535830630, 28338135262805881372350, 28339116279113838509220, 28340114562582683738900, 28342104501210654706300,
  28343148172647694528020, 28344172151600422511700, 28346120056738894097510, 28347172151600422511700, 28349156057221298170710,
  28350141706376045277480, 28351129956523370750650, 28352108265986367055420, 28353138139626605890160, 28354126099898562630800,
  28355103864479706094880, 28356100914872570465640, 28357112619167079633870, 28358108677708325951610, 28359105779020109667150,
  28360116778257752326360, 28361151357185005713360, 28363107214062023994860, 28364124276682994691260, 28366134084975524808530,
  28367138829555320759680, 28368124789615938566760, 28369092313789732737200, 28371140796658263220230, 28372131898083515160230,
  28373120561047430366430, 28375156057221298170710, 28376151357185005713360, 28377165220128616912270, 28378093005423332104920,
  28382111148410902311080, 28383151357185005713360, 28384152692498931958590, 28385080453292136131990, 28386152692498931958590,
  28388116020319358631010, 28389110795951511694320, 28390126099898562630800, 28392104877283174003160, 28393100207231911508380,
  28394172151600422511700, 28396172151600422511700, 28398172151600422511700, 28399111148410902311080, 28401152692498931958590,
  28402165220128616912270, 28404099187467734772500, 28406172151600422511700, 28408137811728377660250, 28409151357185005713360,
  28410152692498931958590, 28411117386964903196610, 28414093005423332104920, 28415080453292136131990, 28417105355608564067900,
  28418111654265870192140, 28421147302533924631700, 28422101564018897325070, 28424148172647694528020, 28425141706376045277480,
  28426152692498931958590, 28429172151600422511700, 28431102519700563809340, 28433158288656811312820, 28435122045247481549150,
  28436092813631674357600, 28437113687212671934470, 28440172151600422511700, 28442126508118507833360, 28448113774295950852320,
  28449145761027126359140, 28450081189967153373890, 28451112671250530705260, 28452165220128616912270, 28457109517617796595470,
  28458136042421296069470, 28459104805683822782230, 28460122247274554724350, 28461165220128616912270, 28462161165477535830630,
  28463140371062119032250, 28465123399627190500200, 28466095702406972923150, 28467120503740683276580, 28468158288656811312820,
  28470165220128616912270, 28471154234005730231160, 28472161165477535830630, 28476165220128616912270, 28477143247882843550070,
  28478125517209481391050, 28479101317721946258760, 28480172151600422511700, 28481116316637334694730, 28483106152895430383350,
  28484139570635042296890, 28485138829555320759680, 28486158288656811312820, 28487128457121897841500, 28488131898083515160230,
  28491165220128616912270, 28492143247882843550070, 28493135015879755468640, 28494145071098411489620, 28495158288656811312820,
  28496172151600422511700, 28497103875308077483200, 28500113262820839182900, 28501118680525115337030, 28502134539599265576090,
  28503125611996920936480, 28504108504092853992600, 28505139570635042296890, 28506134539599265576090, 28507097575507525355660,
  28508097575507525355660, 28510120911960628479140, 28511121717349253319260, 28512165220128616912270, 28513137494241394514450,
  28514129666648002018120, 28515147302533924631700, 28516133233397441405450, 28517129810535376539120, 28518130104674228602060,
  28519129110949490470010, 28520151357185005713360, 28521146502106847896340, 28522132261759956868980, 28523138478642122646980,
  28524135775738825247870, 28525104172196292762410, 28526098096643790517000, 28527122951791164230460, 28528110392927721454100,
  28529158288656811312820, 28530149125749492571260, 28531165220128616912270, 28532138478642122646980, 28533102701089785253380,
  28534139570635042296890, 28536154234005730231160, 28537116699825977716100, 28538146502106847896340, 28539117990596400467510,
  28540140796658263220230, 28541172151600422511700, 28542172151600422511700, 28543151357185005713360, 28544114437189191211570,
  28546135015879755468640, 28547152692498931958590, 28548107806135234637200, 28549172151600422511700, 28550108099315842203300,
  28551121031722538946290, 28552131376225983454520, 28553154234005730231160, 28554158288656811312820, 28556152692498931958590,
  28557143819466981949550, 28558131042861780778600, 28559165220128616912270, 28560172151600422511700, 28562150179354649149520,
  28564172151600422511700, 28566165220128616912270, 28567114282626608844640, 28568138139626605890160, 28571165220128616912270,
  28572113070771040822410, 28576140796658263220230, 28577119681359700906850, 28579161165477535830630, 28580107459097254554000,
  28581165220128616912270, 28582172151600422511700, 28583106569622394389030, 28585139193231762468430, 28590139962842173829710,
  28593172151600422511700, 28595106960127543107770, 28596165220128616912270, 28598090655583065150170, 28601107854405642120350,
  28608100906817797577480, 28609113832775649676550, 28610100442715637386670, 28611144425713200113900, 28612127608127459976630,
  28613117770807333279760, 28614112038928678470100, 28615113458631291173970, 28616118398816345670070, 28617121031722538946290,
  28618119576646702233900, 28619121782074398375430, 28625143819466981949550, 28626114191022914858000, 28627117858144132967300,
  28629095993689702153400, 28632165220128616912270, 28633130255053002247450, 28635127378232277729650, 28638118776219625498540,
  28639095929854474335500, 28640119576646702233900, 28641109107112398291900, 28644110372159282005720, 28646172151600422511700,
  28649147302533924631700, 28651110795951511694320, 28652131376225983454520, 28654107886715847934800, 28655130562769588915000,
  28656135015879755468640, 28657104877283174003160, 28664165220128616912270, 28666125423312077892660, 28668137186524807846900,
  28670116020319358631010, 28672148172647694528020, 28673172151600422511700, 28675117598389268934700, 28677152692498931958590,
  28678117139018317064440, 28681110497421880197510, 28684172151600422511700, 28685154234005730231160, 28687133865186457620770,
  28689123399627190500200, 28693114191022914858000, 28696165220128616912270, 28697172151600422511700, 28698127608127459976630,
  28699100207231911508380, 28701125611996920936480, 28703128457121897841500, 28704158288656811312820, 28707161165477535830630,
  28710138478642122646980, 28711139193231762468430, 28712143819466981949550, 28715172151600422511700, 28716128584512155615800,
  28717161165477535830630, 28718172151600422511700, 28719139962842173829710, 28720132833344095268460, 28721172151600422511700,
  28722165220128616912270, 28724152692498931958590, 28725106085098560529560, 28727139962842173829710, 28728172151600422511700,
  28729097575507525355660, 28730146502106847896340, 28731145761027126359140, 28732145761027126359140, 28733151357185005713360,
  28734113070771040822410, 28735150179354649149520, 28738165220128616912270, 28739123248109140294190, 28740132639163236697430,
  28741172151600422511700, 28744172151600422511700, 28745127725087857608560, 28746145071098411489620, 28747172151600422511700,
  28748097814935020850020, 28749165220128616912270, 28750165220128616912270, 28751095207672396217510, 28753172151600422511700,
  28754152692498931958590, 28756161165477535830630, 28757172151600422511700, 28758145071098411489620, 28760158288656811312820,
  28761118970400484069550, 28762158288656811312820, 28763161165477535830630, 28764151357185005713360, 28765154234005730231160,
  28766101176111916363800, 28767165220128616912270, 28768158288656811312820, 28771172151600422511700, 28772126099898562630800,
  28773161165477535830630, 28774136887995176350100, 28777151357185005713360, 28778154234005730231160, 28779081652231917680120,
  28780172151600422511700, 28781090534995901948890, 28782151357185005713360, 28783090757195203765630, 28784092520479832718830,
  28788172151600422511700, 28789091017334023075160, 28790103555451385969700, 28792111490519521474240, 28794172151600422511700,
  28796110476435513628300, 28797172151600422511700, 28798102653035872503990, 28799121152936144269730, 28800136598119807617580,
  28801165220128616912270, 28805139962842173829710, 28806121092145683505910, 28808158288656811312820, 28809098480829823701600,
  28810119268930115566360, 28814106112162176507000, 28817172151600422511700, 28818088093454388183240, 28820127843432434078570,
  28821100244840079189640, 28822116468155384900740, 28825116857309547397480, 28828134539599265576090, 28829127492519235965890,
  28831145071098411489620, 28834156057221298170710, 28836135015879755468640, 28837172151600422511700, 28841152692498931958590,
  28842133233397441405450, 28843121031722538946290, 28844116020319358631010, 28845112909042448366400, 28846090267487341721410,
  28847108282807228885270, 28848118872838734615910, 28849136042421296069470, 28850112619167079633870, 28851118398816345670070,
  28852117057717056231940, 28853118169973407334190, 28854122664001518730040, 28855121525650092242050, 28856095564604839828730,
  28857071012089915582090, 28858046172074842568410, 28859143247882843550070, 28860102120945834647100, 28861119628866142045420,
  28863172151600422511700, 28864147302533924631700, 28865125901872289669000, 28866099052785564263850, 28867117858144132967300,
  28871126099898562630800, 28872096048024239383340, 28874128584512155615800, 28878172151600422511700, 28879097886109698538670,
  28882172151600422511700, 28884172151600422511700, 28886161165477535830630, 28887161165477535830630, 28888104781930842493160,
  28889114406084967067640, 28890172151600422511700, 28891109536683579301290, 28892140371062119032250, 28893151357185005713360,
  28895089479678563190270, 28899172151600422511700, 28900090248056384879090, 28901172151600422511700, 28902101077345681404670,
  28903087249270324177170, 28904138478642122646980, 28905104805683822782230, 28907102836882366517180, 28908138478642122646980,
  28909078431260812770020, 28911121337556772667100, 28913161165477535830630, 28916117858144132967300, 28917172151600422511700,
  28918139962842173829710, 28919120390103096773430, 28921118728257902863610, 28922135515983961215250, 28923124444754177855060,
  28924158288656811312820, 28925127378232277729650, 28931151357185005713360, 28932151357185005713360, 28933172151600422511700,
  28935156057221298170710, 28937104973553472274810, 28938120793616052009100, 28939158288656811312820, 28940158288656811312820,
  28942172151600422511700, 28944125611996920936480, 28945158288656811312820, 28946172151600422511700, 28947128457121897841500,
  28949118680525115337030, 28950101790115485006360, 28951147302533924631700, 28952128207108875787320, 28953120277742364104170,
  28954108452590594229450, 28956142707210630847300, 28958150179354649149520, 28961065654348805809890, 28962172151600422511700,
  28963132639163236697430, 28964156057221298170710, 28966100488940681175340, 28967161165477535830630, 28970147302533924631700,
  28971165220128616912270, 28974154234005730231160, 28975128331334075772900, 28976116020319358631010, 28977131547170317047520,
  28980152692498931958590, 28982089934123139045500, 28984165220128616912270, 28985165220128616912270, 28986143819466981949550,
  28987156057221298170710, 28988145761027126359140, 28992158288656811312820, 28993144425713200113900, 28994156057221298170710,
  28995154234005730231160, 28996135775738825247870, 28997132833344095268460, 28998156057221298170710, 28999121653040350016340,
  29000172151600422511700, 29001102120945834647100, 29002131042861780778600, 29003151357185005713360, 29004106930672440810200,
  29005137186524807846900, 29006093899147508193970, 29007165220128616912270, 29008172151600422511700, 29009172151600422511700,
  29010134539599265576090, 29013151357185005713360, 29014147302533924631700, 29015172151600422511700, 29017089479678563190270,
  29018121399862270173440, 29020124702279138879210, 29021172151600422511700, 29022108384330943525460, 29023161165477535830630]

def emitS14 : List Nat := [
  29024156057221298170710, 29025115487333541387400, 29026142194277686971800, 29027172151600422511700, 29028093701356250096880,
  29029165220128616912270, 29030132639163236697430, 29031086828812134168930, 29032104420796665956370, 29033101077345681404670,
  29035172151600422511700, 29036151357185005713360, 29037139570635042296890, 29038094885063774035300, 29039161165477535830630,
  29042122735176196418670, 29043124193694966544310, 29044152692498931958590, 29046110839335527680300, 29047172151600422511700,
  29048140371062119032250, 29049152692498931958590, 29050137811728377660250, 29051161165477535830630, 29052154234005730231160,
  29053119734130271915300, 29054165220128616912270, 29055139570635042296890, 29056136598119807617580, 29060115384062399828900,
  29062172151600422511700, 29066098906700629026400, 29067165220128616912270, 29068147302533924631700, 29071110005519438289800,
  29073172151600422511700, 29074165220128616912270, 29075172151600422511700, 29076110774329881649380, 29078161165477535830630,
  29079127492519235965890, 29080135775738825247870, 29081103929626516306800, 29082165220128616912270, 29083172151600422511700,
  29084113629575624766980, 29085172151600422511700, 29087087031804178878220, 29088161165477535830630, 29093158288656811312820,
  29095165220128616912270, 29096127492519235965890, 29097172151600422511700, 29098172151600422511700, 29100100947156698586830,
  29102172151600422511700, 29103150179354649149520, 29104172151600422511700, 29105165220128616912270, 29106125707691431098000,
  29107139193231762468430, 29108130880256572060800, 29109119734130271915300, 29110108452590594229450, 29111102691460511519440,
  29112105368179275968400, 29113128844267019648410, 29114110539527205560950, 29115114130416668741100, 29116114981323408449500,
  29117161165477535830630, 29118119628866142045420, 29119172151600422511700, 29121156057221298170710, 29122118633019087751050,
  29123108677708325951610, 29128090757195203765630, 29129116468155384900740, 29130144425713200113900, 29133172151600422511700,
  29134127153503719209070, 29135149125749492571260, 29136172151600422511700, 29138172151600422511700, 29140147302533924631700,
  29141098775722987125750, 29145102836882366517180, 29146172151600422511700, 29148101790115485006360, 29149161165477535830630,
  29151172151600422511700, 29152150179354649149520, 29157112776238371687450, 29158121152936144269730, 29159123476255917955900,
  29162165220128616912270, 29163126612831506506300, 29165156057221298170710, 29166135775738825247870, 29172104805683822782230,
  29177172151600422511700, 29178165220128616912270, 29179154234005730231160, 29180138478642122646980, 29181172151600422511700,
  29182128207108875787320, 29183172151600422511700, 29190098417857323411230, 29191165220128616912270, 29192172151600422511700,
  29194165220128616912270, 29196161165477535830630, 29197125901872289669000, 29200098480829823701600, 29203172151600422511700,
  29210172151600422511700, 29211142707210630847300, 29212156057221298170710, 29213172151600422511700, 29214136316411037950620,
  29215172151600422511700, 29217172151600422511700, 29218152692498931958590, 29219140371062119032250, 29223165220128616912270,
  29224134774904239678030, 29225172151600422511700, 29226100550908346550450, 29227145761027126359140, 29228089096760245234810,
  29229089616720139052660, 29231172151600422511700, 29232123025051565151190, 29233076074539404234750, 29234126099898562630800,
  29237108538575646781760, 29238092117969836212230, 29239091530424594964330, 29240097945811368403710, 29241091498948333534400,
  29242142194277686971800, 29243127725087857608560, 29244165220128616912270, 29245107694402228655940, 29246089755665879452020,
  29247122735176196418670, 29248156057221298170710, 29249148172647694528020, 29250138139626605890160, 29251172151600422511700,
  29254086097728400990170, 29255084880301270080060, 29256087757121994597880, 29259172151600422511700, 29260091492664952868990,
  29261126508118507833360, 29262138829555320759680, 29263156057221298170710, 29264154234005730231160, 29266115947591765340210,
  29270135262805881372350, 29272161165477535830630, 29273092972594559232550, 29274138139626605890160, 29275084606837359670060,
  29277139193231762468430, 29278158288656811312820, 29279118169973407334190, 29280135262805881372350, 29281108000630830795770,
  29282101126606864765240, 29283172151600422511700, 29284154234005730231160, 29285152692498931958590, 29286165220128616912270,
  29287104877283174003160, 29289081533196785934340, 29290172151600422511700, 29292131721087744166210, 29293156057221298170710,
  29294165220128616912270, 29295128713546203974880, 29297114468390464573990, 29298122951791164230460, 29299142707210630847300,
  29300126099898562630800, 29301096298789636120470, 29302172151600422511700, 29304131376225983454520, 29305082407952004045770,
  29306136042421296069470, 29307143247882843550070, 29309096298789636120470, 29310149125749492571260, 29312123248109140294190,
  29313109651847999916880, 29314172151600422511700, 29316161165477535830630, 29321172151600422511700, 29322124615698511448070,
  29323150179354649149520, 29325125611996920936480, 29326165220128616912270, 29327148172647694528020, 29330126200401921165820,
  29334138139626605890160, 29338172151600422511700, 29339165220128616912270, 29342172151600422511700, 29343126612831506506300,
  29346124615698511448070, 29348172151600422511700, 29350172151600422511700, 29351136042421296069470, 29352161165477535830630,
  29355148172647694528020, 29356108232429288585700, 29357154234005730231160, 29358135262805881372350, 29359089877845354171360,
  29361107710287855507310, 29362104829493357839660, 29363104853359717616960, 29364144425713200113900, 29365112989579796437360,
  29366084643186668756400, 29367152692498931958590, 29368172151600422511700, 29369099788206994968270, 29370113207572079863200,
  29371123631297783315550, 29372154234005730231160, 29376084643186668756400, 29377132261759956868980, 29378097437969540640740,
  29379172151600422511700, 29380111701547282151600, 29381124789615938566760, 29384129384939232351160, 29389128713546203974880,
  29390130407727723555350, 29392109198940408115260, 29394165220128616912270, 29395151357185005713360, 29396161165477535830630,
  29398127608127459976630, 29399089721405732619230, 29401143819466981949550, 29405148172647694528020, 29406147302533924631700,
  29408098305496590741970, 29409122735176196418670, 29410149125749492571260, 29412161165477535830630, 29415172151600422511700,
  29416146502106847896340, 29417128584512155615800, 29420092569328499288600, 29421106044639975334130, 29422105897676742432160,
  29423165220128616912270, 29424154234005730231160, 29425104711008559398240, 29426124529861074534160, 29427172151600422511700,
  29428161165477535830630, 29431154234005730231160, 29432128976719287148600, 29433106044639975334130, 29434148172647694528020,
  29435120333764919590870, 29436093219611727065640, 29437129384939232351160, 29441156057221298170710, 29442145071098411489620,
  29443156057221298170710, 29444165220128616912270, 29447115803704390819210, 29449156057221298170710, 29450149125749492571260,
  29452172151600422511700, 29453172151600422511700, 29454108132428455239860, 29458172151600422511700, 29459118491840272293200,
  29461152692498931958590, 29462138139626605890160, 29463131547170317047520, 29464172151600422511700, 29465154234005730231160,
  29466152692498931958590, 29467090664252333140030, 29468094466267413251380, 29469136887995176350100, 29470172151600422511700,
  29473161165477535830630, 29474149125749492571260, 29475172151600422511700, 29476172151600422511700, 29477134309704083329110,
  29481126612831506506300, 29482091734253307636330, 29483096613491902429400, 29484124276682994691260, 29486089377480433021680,
  29488172151600422511700, 29489130255053002247450, 29490136598119807617580, 29492100435032194826570, 29493172151600422511700,
  29494099788206994968270, 29495136598119807617580, 29497172151600422511700, 29498151357185005713360, 29499124529861074534160,
  29502143819466981949550, 29503108890105690960720, 29505144425713200113900, 29506154234005730231160, 29507172151600422511700,
  29508104711008559398240, 29509172151600422511700, 29510158288656811312820, 29512142707210630847300, 29514135262805881372350,
  29515138829555320759680, 29516151357185005713360, 29517142707210630847300, 29518154234005730231160, 29519139570635042296890,
  29520121152936144269730, 29522132448681286990500, 29523151357185005713360, 29525161165477535830630, 29527128844267019648410,
  29528152692498931958590, 29529136598119807617580, 29530165220128616912270, 29531172151600422511700, 29532165220128616912270,
  29533158288656811312820, 29534143819466981949550, 29535172151600422511700, 29536127153503719209070, 29537158288656811312820,
  29540172151600422511700, 29541145071098411489620, 29542158288656811312820, 29544092569328499288600, 29546165220128616912270,
  29547143247882843550070, 29548126612831506506300, 29549124529861074534160, 29550172151600422511700, 29551132833344095268460,
  29552147302533924631700, 29554082366256321678520, 29556145071098411489620, 29557108132428455239860, 29559152692498931958590,
  29560095910294565898830, 29562124529861074534160, 29563089377480433021680, 29564172151600422511700, 29566107662706481043140,
  29567172151600422511700, 29568161165477535830630, 29569146502106847896340, 29571172151600422511700, 29572101085539045238700,
  29574161165477535830630, 29575081627608583435660, 29576161165477535830630, 29577086703516838019610, 29579073265323526220680,
  29582127153503719209070, 29584172151600422511700, 29585131042861780778600, 29587172151600422511700, 29589139570635042296890,
  29590126301925635806000, 29591165220128616912270, 29592132448681286990500, 29593158288656811312820, 29594165220128616912270,
  29595109052417640246550, 29596172151600422511700, 29597148172647694528020, 29598165220128616912270, 29599161165477535830630,
  29600125517209481391050, 29601142707210630847300, 29602149125749492571260, 29605150179354649149520, 29606145071098411489620,
  29608172151600422511700, 29609088706549586606510, 29610165220128616912270, 29611110752754900249160, 29613172151600422511700,
  29614112697394336445970, 29615089027794454644200, 29616081625266663050250, 29617172151600422511700, 29618121275637070187870,
  29619139193231762468430, 29623148172647694528020, 29625115080497775022950, 29626117770807333279760, 29627112829148548031610,
  29632122315534205428360, 29634102653035872503990, 29637119734130271915300, 29640116056882470662120, 29641165220128616912270,
  29642096697702926393470, 29644150179354649149520, 29645101393511782727850, 29646158288656811312820, 29647148172647694528020,
  29648131376225983454520, 29649125146796764587550, 29650135015879755468640, 29651158288656811312820, 29655122045247481549150,
  29656158288656811312820, 29657145071098411489620, 29659124029756868787540, 29660148172647694528020, 29662098569662895181400,
  29663118035139903961320, 29664093260756352156570, 29665161165477535830630, 29667142194277686971800, 29669145071098411489620,
  29670150179354649149520, 29671165220128616912270, 29673116279113838509220, 29674113980488822879680, 29675142194277686971800,
  29677087653895271523690, 29678114100250733346830, 29679127608127459976630, 29680109555785781862480, 29682126508118507833360,
  29684161165477535830630, 29685135515983961215250, 29686131208154800290710, 29687137494241394514450, 29689161165477535830630,
  29690152692498931958590, 29692172151600422511700, 29693149125749492571260, 29694081625266663050250, 29699085757492181106850,
  29701115113775675949710, 29702083773336782434670, 29703132833344095268460, 29705117946250429788860, 29706132448681286990500,
  29707172151600422511700, 29709143819466981949550, 29710131898083515160230, 29711120971662298344160, 29712117057717056231940,
  29714172151600422511700, 29715138478642122646980, 29717172151600422511700, 29719165220128616912270, 29720158288656811312820,
  29721172151600422511700, 29722114883122946639740, 29723108469728559006800, 29729161165477535830630, 29730119473018831878440,
  29731161165477535830630, 29732133650124405411130, 29733148172647694528020, 29734126718652599811680, 29735172151600422511700,
  29736150179354649149520, 29738128331334075772900, 29739149125749492571260, 29740145761027126359140, 29741172151600422511700,
  29742133439590313432820, 29743136042421296069470, 29744141241175888928560, 29746161165477535830630, 29747106712481966863800,
  29748097662439397069710, 29749127043005357343200, 29750130562769588915000, 29753172151600422511700, 29754158288656811312820,
  29755172151600422511700, 29756110752754900249160, 29759126508118507833360, 29760138139626605890160, 29761118776219625498540]

def emitS15 : List Nat := [
  29764136887995176350100, 29766152692498931958590, 29767154234005730231160, 29769172151600422511700, 29771112697394336445970,
  29773165220128616912270, 29777165220128616912270, 29778165220128616912270, 29780161165477535830630, 29781103660937596177140,
  29783121782074398375430, 29785105156597020894940, 29786144425713200113900, 29787112162234803044890, 29788097939825136557770,
  29789161165477535830630, 29790105739778725105800, 29791114948482656437600, 29792172151600422511700, 29794172151600422511700,
  29795117057717056231940, 29796110688307845822750, 29799117598389268934700, 29800172151600422511700, 29801158288656811312820,
  29802109052417640246550, 29804172151600422511700, 29805140371062119032250, 29806151357185005713360, 29807151357185005713360,
  29808103940525699947060, 29809161165477535830630, 29810172151600422511700, 29812144425713200113900, 29814110688307845822750,
  29815122045247481549150, 29818165220128616912270, 29821172151600422511700, 29822125056298409388380, 29824129810535376539120,
  29825101754996923890960, 29827143819466981949550, 29828172151600422511700, 29830149125749492571260, 29831094960302013444390,
  29832131376225983454520, 29833172151600422511700, 29834158288656811312820, 29835108469728559006800, 29838161165477535830630,
  29840114406084967067640, 29842172151600422511700, 29847172151600422511700, 29848112776238371687450, 29849172151600422511700,
  29850172151600422511700, 29852130562769588915000, 29853136316411037950620, 29854119576646702233900, 29855125707691431098000,
  29856137186524807846900, 29857131898083515160230, 29859136316411037950620, 29861158288656811312820, 29862122045247481549150,
  29863098775722987125750, 29864143247882843550070, 29865145071098411489620, 29866151357185005713360, 29867109555785781862480,
  29868151357185005713360, 29869131898083515160230, 29870136316411037950620, 29872119268930115566360, 29877158288656811312820,
  29879172151600422511700, 29882106234863102425140, 29885117770807333279760, 29887151357185005713360, 29892165220128616912270,
  29895172151600422511700, 29896172151600422511700, 29897158288656811312820, 29898110752754900249160, 29900156057221298170710,
  29901156057221298170710, 29903125146796764587550, 29904158288656811312820, 29905121462558400309400, 29906117057717056231940,
  29908161165477535830630, 29909147302533924631700, 29910135015879755468640, 29912136042421296069470, 29913102778459610274900,
  29914161165477535830630, 29915165220128616912270, 29916104386530498789880, 29918172151600422511700, 29919131721087744166210,
  29920134539599265576090, 29922120056738894097510, 29923110709744081255260, 29924127492519235965890, 29925136887995176350100,
  29926091355420128613320, 29927125056298409388380, 29928136598119807617580, 29929147302533924631700, 29930165220128616912270,
  29931165220128616912270, 29933161165477535830630, 29934109254444713421750, 29935127963194344545740, 29936172151600422511700,
  29937172151600422511700, 29940143247882843550070, 29942097151835012990500, 29943105844766566088000, 29944172151600422511700,
  29951130255053002247450, 29955165220128616912270, 29956126301925635806000, 29958129247006011027800, 29959161165477535830630,
  29963172151600422511700, 29964127963194344545740, 29965151357185005713360, 29967141706376045277480, 29969123788781352996930,
  29970158288656811312820, 29971139193231762468430, 29973109254444713421750, 29975144425713200113900, 29976105022038415741030,
  29977126718652599811680, 29978077336481499501980, 29980096137577076674390, 29983071903844925078440, 29984135262805881372350,
  29985161165477535830630, 29986083849094720519250, 29987145761027126359140, 29988172151600422511700, 29989127492519235965890,
  29990151357185005713360, 29991172151600422511700, 29992059689904708505480, 29993102075594282993180, 29994154234005730231160,
  29995108890105690960720, 29996131898083515160230, 29997109235909026928510, 29999109125410665062660, 30000085139800147219180,
  30001059480967532822610, 30002087528455123449240, 30003106428774995571640, 30004172151600422511700, 30005077657240327468520,
  30007083013406913939750, 30008114753671300719380, 30010121847221208587350, 30011082846658569589950, 30013172151600422511700,
  30014126718652599811680, 30016140371062119032250, 30021106044639975334130, 30024138829555320759680, 30026165220128616912270,
  30027143247882843550070, 30028085272119304124450, 30029135775738825247870, 30030144425713200113900, 30031108000630830795770,
  30033139193231762468430, 30036103692801669871230, 30038132448681286990500, 30041084130887057158880, 30042133233397441405450,
  30043136316411037950620, 30044107259551109258540, 30045135515983961215250, 30046148172647694528020, 30048126200401921165820,
  30050091414454011413150, 30051172151600422511700, 30052141241175888928560, 30053087513676275620490, 30054126612831506506300,
  30055137186524807846900, 30056122179477684870560, 30057141706376045277480, 30058092954402813265970, 30059122112137363057120,
  30060124276682994691260, 30061158288656811312820, 30063156057221298170710, 30064090675823060494000, 30066118824412489858030,
  30068121717349253319260, 30070158288656811312820, 30071161165477535830630, 30072130255053002247450, 30073120911960628479140,
  30074172151600422511700, 30075122045247481549150, 30076118921500631127640, 30078124276682994691260, 30079123248109140294190,
  30080165220128616912270, 30081143819466981949550, 30082154234005730231160, 30083126000395254099120, 30084115983889445846000,
  30086110992679167681380, 30087121717349253319260, 30090103973294707970220, 30091131547170317047520, 30093130720253158596390,
  30094165220128616912270, 30095097460761573299380, 30097101728738703114300, 30098172151600422511700, 30100133650124405411130,
  30102137494241394514450, 30103115147164688604850, 30105156057221298170710, 30106134539599265576090, 30109130880256572060800,
  30111131547170317047520, 30112150179354649149520, 30113140796658263220230, 30114172151600422511700, 30115122735176196418670,
  30116118872838734615910, 30117138478642122646980, 30119172151600422511700, 30123124111389975179150, 30124161165477535830630,
  30125161165477535830630, 30126115349874332341040, 30127100450404988015440, 30128172151600422511700, 30129132833344095268460,
  30130112362742773500500, 30131147302533924631700, 30132150179354649149520, 30133130407727723555350, 30134161165477535830630,
  30136158288656811312820, 30137126933714652021320, 30140096868282755439240, 30141129524801652098560, 30142097517969967311520,
  30144172151600422511700, 30146132639163236697430, 30147172151600422511700, 30149081043085687757320, 30151100065597042909730,
  30152122247274554724350, 30153125901872289669000, 30154125056298409388380, 30155120277742364104170, 30157156057221298170710,
  30158144425713200113900, 30160165220128616912270, 30161172151600422511700, 30162107662706481043140, 30164123553476378895000,
  30165111261151668043250, 30166154234005730231160, 30167172151600422511700, 30168121653040350016340, 30169125901872289669000,
  30170165220128616912270, 30171090044920110881940, 30173148172647694528020, 30174136887995176350100, 30175154234005730231160,
  30176150179354649149520, 30178121031722538946290, 30179121092145683505910, 30180158288656811312820, 30183129810535376539120,
  30184137494241394514450, 30186126000395254099120, 30187139962842173829710, 30188165220128616912270, 30189156057221298170710,
  30192104138770077795500, 30193154234005730231160, 30195146502106847896340, 30196109460637585449110, 30197143247882843550070,
  30199154234005730231160, 30201122879063570939660, 30202122879063570939660, 30204161165477535830630, 30206172151600422511700,
  30207139193231762468430, 30208116977071457864630, 30209149125749492571260, 30210154234005730231160, 30213161165477535830630,
  30214152692498931958590, 30215137186524807846900, 30216139193231762468430, 30217129247006011027800, 30219100450404988015440,
  30220172151600422511700, 30221140796658263220230, 30222138829555320759680, 30223154234005730231160, 30224151357185005713360,
  30225124029756868787540, 30226149125749492571260, 30227126000395254099120, 30228139193231762468430, 30229145071098411489620,
  30230146502106847896340, 30231150179354649149520, 30232128976719287148600, 30233158288656811312820, 30234158288656811312820,
  30235126508118507833360, 30236144425713200113900, 30237136887995176350100, 30238158288656811312820, 30239123476255917955900,
  30240133031370368230260, 30241115349874332341040, 30242127153503719209070, 30243172151600422511700, 30244107935377744446530,
  30246097080189625235640, 30247156057221298170710, 30248138829555320759680, 30249161165477535830630, 30250124529861074534160,
  30251116583319805516330, 30252134084975524808530, 30254124029756868787540, 30255132639163236697430, 30256144425713200113900,
  30258149125749492571260, 30259158288656811312820, 30260126718652599811680, 30261165220128616912270, 30263137494241394514450,
  30264120911960628479140, 30265141241175888928560, 30266131898083515160230, 30268151357185005713360, 30269113950771118988100,
  30270116279113838509220, 30271128207108875787320, 30272161165477535830630, 30273158288656811312820, 30274142194277686971800,
  30275156057221298170710, 30278137494241394514450, 30279152692498931958590, 30280154234005730231160, 30281161165477535830630,
  30282161165477535830630, 30283140796658263220230, 30284107822199495119920, 30285135515983961215250, 30286150179354649149520,
  30287172151600422511700, 30289165220128616912270, 30290172151600422511700, 30292158288656811312820, 30293154234005730231160,
  30294123788781352996930, 30295165220128616912270, 30296172151600422511700, 30297161165477535830630, 30298145071098411489620,
  30300150179354649149520, 30301158288656811312820, 30302128584512155615800, 30303124529861074534160, 30305161165477535830630,
  30306107662706481043140, 30307132261759956868980, 30308137494241394514450, 30309150179354649149520, 30311161165477535830630,
  30312165220128616912270, 30313128584512155615800, 30315128457121897841500, 30316132261759956868980, 30317128207108875787320,
  30318116279113838509220, 30319144425713200113900, 30320122247274554724350, 30321116583319805516330, 30322128457121897841500,
  30323124789615938566760, 30326165220128616912270, 30328115626708619825220, 30329165220128616912270, 30331091906251706454750,
  30332074836477544548540, 30333078005735560652430, 30334091026322787725340, 30335165220128616912270, 30336172151600422511700,
  30337165220128616912270, 30338115626708619825220, 30340022401766800588425, 30342082910361505651600, 30343089608912721609890,
  30344133650124405411130, 30346119019540632093840, 30347125423312077892660, 30350117990596400467510, 30352172151600422511700,
  30353148172647694528020, 30354138139626605890160, 30355115214279034484730, 30357156057221298170710, 30358106527159485574520,
  30360142707210630847300, 30361137494241394514450, 30362148172647694528020, 30364172151600422511700, 30365122045247481549150,
  30366143247882843550070, 30367127153503719209070, 30368140371062119032250, 30369151357185005713360, 30370120222031913609620,
  30371152692498931958590, 30372151357185005713360, 30373128976719287148600, 30374138139626605890160, 30375142707210630847300,
  30376119576646702233900, 30377161165477535830630, 30378152692498931958590, 30379172151600422511700, 30380114221464338670270,
  30382083355484322691350, 30383119319563135131830, 30384132833344095268460, 30385100794726952230280, 30386172151600422511700,
  30387156057221298170710, 30388128084407949869180, 30389114981323408449500, 30390172151600422511700, 30391147302533924631700,
  30392172151600422511700, 30393158288656811312820, 30394100794726952230280, 30395138139626605890160, 30396151357185005713360,
  30397165220128616912270, 30398154234005730231160, 30399138829555320759680, 30402119787180794212220, 30403172151600422511700,
  30405117641215886854710, 30406102453693723495820, 30408112490133031274800, 30409143247882843550070, 30410109729367767960060,
  30412146502106847896340, 30413139570635042296890, 30414118445220141235090, 30415102994365936198570, 30416088183282075061180,
  30417094137687219596860, 30418102249035417572900, 30420109985539411663070, 30422088782904049662150, 30423095194020516964100,
  30424089603711161024470, 30427091256775678904190, 30428095194020516964100, 30429156057221298170710, 30430172151600422511700,
  30431105218363739812230, 30433079931875860452815, 30435165220128616912270, 30436089603711161024470, 30437140371062119032250,
  30438147302533924631700, 30439161165477535830630, 30440161165477535830630, 30441151357185005713360, 30442165220128616912270,
  30443165220128616912270, 30444161165477535830630, 30446085993892874739400, 30447096258242190805540, 30449154234005730231160]

def emitS16 : List Nat := [
  30450112162234803044890, 30452075393261965071390, 30456072490733479585230, 30457125804310540215360, 30459165220128616912270,
  30460097820846933525900, 30461172151600422511700, 30462106974887693388960, 30463172151600422511700, 30464134539599265576090,
  30465069078420502833400, 30468152692498931958590, 30469172151600422511700, 30471138829555320759680, 30472140371062119032250,
  30473101521118788630000, 30474156057221298170710, 30475061080847595206360, 30477154234005730231160, 30481156057221298170710,
  30483165220128616912270, 30484158288656811312820, 30487172151600422511700, 30488144425713200113900, 30489172151600422511700,
  30490151357185005713360, 30491161165477535830630, 30492156057221298170710, 30493148172647694528020, 30494172151600422511700,
  30495073122726697870760, 30496107951651141040300, 30498149125749492571260, 30501165220128616912270, 30502131898083515160230,
  30504104805683822782230, 30505122523154119912640, 30507172151600422511700, 30508131208154800290710, 30509147302533924631700,
  30510132078268570187000, 30511110817619992545230, 30512116167380832527960, 30513172151600422511700, 30515132639163236697430,
  30516147302533924631700, 30517149125749492571260, 30518123248109140294190, 30519114499689394663270, 30520138829555320759680,
  30521147302533924631700, 30522138139626605890160, 30523134309704083329110, 30524081255194555127730, 30525113832775649676550,
  30526172151600422511700, 30527140371062119032250, 30528050678612322993880, 30529093302070964913590, 30531130407727723555350,
  30532158288656811312820, 30533151357185005713360, 30534142707210630847300, 30535147302533924631700, 30537156057221298170710,
  30540127963194344545740, 30541138829555320759680, 30542172151600422511700, 30543145071098411489620, 30544145071098411489620,
  30545128713546203974880, 30549172151600422511700, 30550161165477535830630, 30551172151600422511700, 30552139193231762468430,
  30553115521995621152250, 30554161165477535830630, 30555115487333541387400, 30556161165477535830630, 30558145071098411489620,
  30560172151600422511700, 30561083373596483685970, 30562119068923448499660, 30563099241852641081910, 30565158288656811312820,
  30566108469728559006800, 30568126933714652021320, 30570145761027126359140, 30571136042421296069470, 30572116897071031193870,
  30574149125749492571260, 30577165220128616912270, 30579120333764919590870, 30581152692498931958590, 30582141241175888928560,
  30583137186524807846900, 30585121717349253319260, 30586149125749492571260, 30588172151600422511700, 30589141706376045277480,
  30590124193694966544310, 30591102481929036371880, 30592152692498931958590, 30596113125267088498060, 30597098749732069310560,
  30598165220128616912270, 30599110817619992545230, 30600156057221298170710, 30603150179354649149520, 30604156057221298170710,
  30605161165477535830630, 30606092667747571392720, 30607138829555320759680, 30609138478642122646980, 30610098659292176378380,
  30612172151600422511700, 30622098659292176378380, 30623114130416668741100, 30624138139626605890160, 30625161165477535830630,
  30626161165477535830630, 30627172151600422511700, 30629109347642032909760, 30630165220128616912270, 30631080595926961222800,
  30633137811728377660250, 30634097489324860356920, 30636116204486626493320, 30637135015879755468640, 30638150179354649149520,
  30640141241175888928560, 30643122593329846499100, 30645165220128616912270, 30646165220128616912270, 30647172151600422511700,
  30650150179354649149520, 30651110992679167681380, 30652128713546203974880, 30653136887995176350100, 30654131721087744166210,
  30655119473018831878440, 30656138829555320759680, 30657165220128616912270, 30660172151600422511700, 30661172151600422511700,
  30663128584512155615800, 30665133650124405411130, 30666146502106847896340, 30668147302533924631700, 30669135262805881372350,
  30670172151600422511700, 30673165220128616912270, 30675156057221298170710, 30677172151600422511700, 30678130880256572060800,
  30679110624273475470680, 30680161165477535830630, 30681143247882843550070, 30682137811728377660250, 30683110085841155262440,
  30684120222031913609620, 30685146502106847896340, 30686137811728377660250, 30687161165477535830630, 30689152692498931958590,
  30690111306606291760000, 30691094814764714752700, 30693076080590027969710, 30695148172647694528020, 30697119787180794212220,
  30699116056882470662120, 30700142707210630847300, 30701084109850234975470, 30702100373776260559740, 30703116056882470662120,
  30704172151600422511700, 30707079034370559863865, 30708165220128616912270, 30710114375077190285150, 30712132833344095268460,
  30715165220128616912270, 30716165220128616912270, 30717138478642122646980, 30718112935816226073560, 30719094766719197565270,
  30720138139626605890160, 30721098788743822298740, 30722103419962080386530, 30725156057221298170710, 30726126933714652021320,
  30727129810535376539120, 30729135775738825247870, 30730146502106847896340, 30731151357185005713360, 30732098678603415080080,
  30733091080425715007820, 30737134774904239678030, 30738140371062119032250, 30740107108718687145250, 30741151357185005713360,
  30742096268363649159490, 30743134774904239678030, 30744138139626605890160, 30745132639163236697430, 30746114625874034255400,
  30747172151600422511700, 30748134774904239678030, 30749138829555320759680, 30751146502106847896340, 30754172151600422511700,
  30755133031370368230260, 30757111583760290225470, 30758132639163236697430, 30759130255053002247450, 30761131898083515160230,
  30762161165477535830630, 30763134539599265576090, 30764148172647694528020, 30765133650124405411130, 30766161165477535830630,
  30767172151600422511700, 30768100842612119548250, 30770149125749492571260, 30772080827812117447000, 30773165220128616912270,
  30775117513282372255610, 30776094779799644165400, 30777132078268570187000, 30778124702279138879210, 30779125901872289669000,
  30780151357185005713360, 30781126508118507833360, 30782124360365491396420, 30784114883122946639740, 30785150179354649149520,
  30786172151600422511700, 30787143247882843550070, 30789102836882366517180, 30790172151600422511700, 30791138139626605890160,
  30793172151600422511700, 30794172151600422511700, 30795161165477535830630, 30796120793616052009100, 30798122806861091204790,
  30800126508118507833360, 30802121031722538946290, 30804161165477535830630, 30805111421155081507660, 30806133650124405411130,
  30807132639163236697430, 30809139570635042296890, 30810154234005730231160, 30812150179354649149520, 30813119840514253965850,
  30814165220128616912270, 30816158288656811312820, 30820133650124405411130, 30821120676655654377180, 30822133650124405411130,
  30823165220128616912270, 30824134774904239678030, 30825141241175888928560, 30826123948784766461340, 30827106207465825013930,
  30828086600931984068530, 30829145071098411489620, 30830090201023513560940, 30831114625874034255400, 30836172151600422511700,
  30837172151600422511700, 30838126301925635806000, 30839122664001518730040, 30840152692498931958590, 30841172151600422511700,
  30843156057221298170710, 30844116430060100734070, 30846154234005730231160, 30847161165477535830630, 30848172151600422511700,
  30849127265236725190330, 30850150179354649149520, 30851172151600422511700, 30855132261759956868980, 30857123248109140294190,
  30860114883122946639740, 30861109651847999916880, 30862095354464022848000, 30863151357185005713360, 30865097437969540640740,
  30867135775738825247870, 30868148172647694528020, 30869135775738825247870, 30871091524121411648170, 30872109198940408115260,
  30874138478642122646980, 30875126612831506506300, 30876137186524807846900, 30878165220128616912270, 30879106755740866335010,
  30881158288656811312820, 30882172151600422511700, 30883133233397441405450, 30885172151600422511700, 30886172151600422511700,
  30887099695049746566370, 30889111421155081507660, 30893172151600422511700, 30896096718866955457270, 30897103327225712533240,
  30898129110949490470010, 30899097581279531287920, 30900128584512155615800, 30901172151600422511700, 30902172151600422511700,
  30905165220128616912270, 30906172151600422511700, 30907150179354649149520, 30908098788743822298740, 30909172151600422511700,
  30910109441716103928730, 30913098847548304067700, 30915152692498931958590, 30917107474613161468180, 30920172151600422511700,
  30922128584512155615800, 30923112211986149446030, 30928116699825977716100, 30929139570635042296890, 30932134309704083329110,
  30933103044092542892360, 30934158288656811312820, 30937156057221298170710, 30938172151600422511700, 30941158288656811312820,
  30945156057221298170710, 30947137186524807846900, 30949142194277686971800, 30951126612831506506300, 30952095630892961346900,
  30956128844267019648410, 30957152692498931958590, 30958172151600422511700, 30959114375077190285150, 30961129524801652098560,
  30962165220128616912270, 30964110817619992545230, 30965172151600422511700, 30966146502106847896340, 30967099911352339653410,
  30969165220128616912270, 30970121092145683505910, 30971172151600422511700, 30972151357185005713360, 30973132639163236697430,
  30974129110949490470010, 30977110005519438289800, 30978146502106847896340, 30980154234005730231160, 30981147302533924631700,
  30983133650124405411130, 30986142194277686971800, 30987135262805881372350, 30988136042421296069470, 30990114883122946639740,
  30993172151600422511700, 30995158288656811312820, 31001165220128616912270, 31004172151600422511700, 31005165220128616912270,
  31006154234005730231160, 31008138829555320759680, 31014094766719197565270, 31017129666648002018120, 31018124702279138879210,
  31019124360365491396420, 31020112935816226073560, 31022138478642122646980, 31024172151600422511700, 31025125901872289669000,
  31026158288656811312820, 31028165220128616912270, 31029172151600422511700, 31034103399279549745950, 31035140796658263220230,
  31036085837457067449120, 31037146502106847896340, 31038090339991842277620, 31040099788206994968270, 31041128844267019648410,
  31042141706376045277480, 31043156057221298170710, 31045149125749492571260, 31046126508118507833360, 31047129524801652098560,
  31048121717349253319260, 31049145761027126359140, 31051165220128616912270, 31054112464524822658060, 31055140371062119032250,
  31056107153730015953170, 31058165220128616912270, 31059136316411037950620, 31060158288656811312820, 31061172151600422511700,
  31062098449294004440900, 31063129110949490470010, 31066127608127459976630, 31067124111389975179150, 31068130104674228602060,
  31069096771973824829640, 31070077776840976912420, 31071133233397441405450, 31072108452590594229450, 31074138829555320759680,
  31075165220128616912270, 31077107662706481043140, 31078130407727723555350, 31079123248109140294190, 31080094517136535238090,
  31081154234005730231160, 31082165220128616912270, 31083140796658263220230, 31084150179354649149520, 31085088869505505024390,
  31087130255053002247450, 31088161165477535830630, 31090172151600422511700, 31091161165477535830630, 31092146502106847896340,
  31093152692498931958590, 31094172151600422511700, 31095122045247481549150, 31096101368184626935010, 31097152692498931958590,
  31098122112137363057120, 31099144425713200113900, 31100152692498931958590, 31101139570635042296890, 31102147302533924631700,
  31103112137451642900210, 31104099289683275487900, 31105097552452760100670, 31106154234005730231160, 31108112137451642900210,
  31109104489683275908210, 31110144425713200113900, 31111172151600422511700, 31114158288656811312820, 31115150179354649149520,
  31116158288656811312820, 31117101368184626935010, 31118130255053002247450, 31119092358211469888440, 31120149125749492571260,
  31121172151600422511700, 31125112464524822658060, 31126152692498931958590, 31131123025051565151190, 31135172151600422511700,
  31141151357185005713360, 31142086892053451663620, 31143140796658263220230, 31144127843432434078570, 31145151357185005713360,
  31146104489683275908210, 31149172151600422511700, 31150161165477535830630, 31152107274760237665610, 31153122045247481549150,
  31155129810535376539120, 31157152692498931958590, 31161108132428455239860, 31162149125749492571260, 31163080315744075838100,
  31165114040190492744700, 31166102066548601688910, 31167105558661225675350, 31168097898021552240200, 31169096613491902429400,
  31171105558661225675350, 31173142194277686971800, 31174121462558400309400, 31175172151600422511700, 31176134539599265576090,
  31177114915749402987920, 31179092583329201610610, 31181072851279344929310, 31183161165477535830630, 31184172151600422511700,
  31185083475917090447300, 31186089258717192508550, 31187172151600422511700, 31189148172647694528020, 31191152692498931958590,
  31192102915314141127450, 31193140371062119032250, 31199095813064825694030, 31203132833344095268460, 31204114191022914858000]

def emitS17 : List Nat := [
  31206092646576074423200, 31207133865186457620770, 31208172151600422511700, 31209113862144246409650, 31211144425713200113900,
  31212172151600422511700, 31213158288656811312820, 31214151357185005713360, 31215094154067239639240, 31216070387868465060200,
  31217149125749492571260, 31219172151600422511700, 31220150179354649149520, 31223133650124405411130, 31224126000395254099120,
  31225150179354649149520, 31226128457121897841500, 31227091041322040574930, 31228156057221298170710, 31229116897071031193870,
  31230133650124405411130, 31232099420674462516490, 31233172151600422511700, 31234146502106847896340, 31235144425713200113900,
  31237172151600422511700, 31239172151600422511700, 31240121462558400309400, 31241172151600422511700, 31242161165477535830630,
  31243095673739968102400, 31244165220128616912270, 31245087944777512157780, 31246093935169160111900, 31247172151600422511700,
  31248172151600422511700, 31250161165477535830630, 31252137494241394514450, 31253172151600422511700, 31255131547170317047520,
  31257172151600422511700, 31258118124826603788920, 31259156057221298170710, 31260158288656811312820, 31262161165477535830630,
  31264117139018317064440, 31267133650124405411130, 31271165220128616912270, 31278172151600422511700, 31281070387868465060200,
  31283096613491902429400, 31286143819466981949550, 31287116056882470662120, 31288150179354649149520, 31289124193694966544310,
  31291110624273475470680, 31292127843432434078570, 31293114040190492744700, 31295099441515039701790, 31296165220128616912270,
  31300150179354649149520, 31301154234005730231160, 31302112137451642900210, 31303146502106847896340, 31304172151600422511700,
  31305158288656811312820, 31306172151600422511700, 31307165220128616912270, 31308133650124405411130, 31309094154067239639240,
  31310109787904520474680, 31313126404490637477900, 31319112362742773500500, 31324165220128616912270, 31328172151600422511700,
  31329126404490637477900, 31330116897071031193870, 31336137494241394514450, 31337096613491902429400, 31339172151600422511700,
  31340140796658263220230, 31341165220128616912270, 31342172151600422511700, 31344133233397441405450, 31348091863788797640250,
  31350103225184010790830, 31351094753655838424710, 31352131547170317047520, 31353126508118507833360, 31354082965097641243090,
  31355152692498931958590, 31356150179354649149520, 31357156057221298170710, 31359078773943820197500, 31360144425713200113900,
  31361096344602900266080, 31363106886651826803810, 31364100628911862186320, 31365172151600422511700, 31366140371062119032250,
  31367130720253158596390, 31368133650124405411130, 31370172151600422511700, 31371156057221298170710, 31373111844747819899090,
  31374161165477535830630, 31377099759450684713670, 31378115080497775022950, 31379156057221298170710, 31381132833344095268460,
  31382105243177648326080, 31383098084493120735310, 31384119524698533462870, 31387139193231762468430, 31388101949693339392460,
  31389095731156393779140, 31390132078268570187000, 31391103094067659397070, 31392124789615938566760, 31393117555745281070130,
  31394165220128616912270, 31395128976719287148600, 31397111375177989021380, 31398109945698721514320, 31400131547170317047520,
  31401095731156393779140, 31402172151600422511700, 31404128084407949869180, 31405134084975524808530, 31406094753655838424710,
  31407099759450684713670, 31408172151600422511700, 31411136042421296069470, 31413161165477535830630, 31414134084975524808530,
  31416134539599265576090, 31418111375177989021380, 31419165220128616912270, 31420172151600422511700, 31423152692498931958590,
  31427165220128616912270, 31428101949693339392460, 31429111844747819899090, 31430146502106847896340, 31431109945698721514320,
  31432156057221298170710, 31434106886651826803810, 31435081870612302687730, 31441134539599265576090, 31446101376619886819400,
  31448165220128616912270, 31449071635111387345230, 31450172151600422511700, 31452172151600422511700, 31453165220128616912270,
  31454101851871305447850, 31455079209381862942870, 31456084945363308307440, 31458172151600422511700, 31459146502106847896340,
  31461097168441714841900, 31462118260883124346700, 31467148172647694528020, 31469116506396349284780, 31470172151600422511700,
  31471085776980184439900, 31475139193231762468430, 31476091929191254446340, 31477123399627190500200, 31478101851871305447850,
  31479117902100247697690, 31480165220128616912270, 31481089436116674956580, 31482130104674228602060, 31483122453467426751700,
  31484165220128616912270, 31485128084407949869180, 31486134084975524808530, 31487115768053729174250, 31488128084407949869180,
  31489117428893685796960, 31490103134228355945970, 31491109052417640246550, 31492131721087744166210, 31493099781010161264340,
  31494121525650092242050, 31495141706376045277480, 31496119681359700906850, 31497092784998870257450, 31498138478642122646980,
  31499121589142369028630, 31500134539599265576090, 31501150179354649149520, 31502143247882843550070, 31503129810535376539120,
  31504148172647694528020, 31505068337006908201310, 31507143819466981949550, 31508091290575065820720, 31509132448681286990500,
  31510118776219625498540, 31512130720253158596390, 31513110248446363980240, 31514150179354649149520, 31515103265875826858090,
  31516165220128616912270, 31518123173202423002600, 31519134774904239678030, 31520120277742364104170, 31521154234005730231160,
  31522114100250733346830, 31523138139626605890160, 31524128457121897841500, 31525127043005357343200, 31526105330514448013620,
  31527161165477535830630, 31528110187159144566510, 31529146502106847896340, 31530132261759956868980, 31531126933714652021320,
  31532071670528001051000, 31533158288656811312820, 31534125517209481391050, 31536172151600422511700, 31537126718652599811680,
  31539133439590313432820, 31544132261759956868980, 31546113572268877677120, 31548103660937596177140, 31550134309704083329110,
  31557140371062119032250, 31558165220128616912270, 31559134774904239678030, 31560161165477535830630, 31561050296268954402530,
  31562165220128616912270, 31563097364252166832980, 31564152692498931958590, 31565121589142369028630, 31566161165477535830630,
  31567118824412489858030, 31568118680525115337030, 31569095212227167419000, 31570101012039326851360, 31572086709355117839040,
  31574097709113927544650, 31576151357185005713360, 31578158288656811312820, 31579114130416668741100, 31580123631297783315550,
  31581119019540632093840, 31583131547170317047520, 31584150179354649149520, 31585172151600422511700, 31589172151600422511700,
  31590134539599265576090, 31591132448681286990500, 31592139962842173829710, 31593154234005730231160, 31595121031722538946290,
  31596172151600422511700, 31598134539599265576090, 31600142194277686971800, 31601139570635042296890, 31602149125749492571260,
  31603165220128616912270, 31604154234005730231160, 31605114251998713539180, 31606128713546203974880, 31607118585737675791600,
  31609105046369327987430, 31611152692498931958590, 31612158288656811312820, 31613114070175522707280, 31614101469880418631300,
  31616103194773445033030, 31617146502106847896340, 31621145071098411489620, 31623165220128616912270, 31626172151600422511700,
  31627113572268877677120, 31628172151600422511700, 31629109906016129758120, 31630150179354649149520, 31631119019540632093840,
  31632116468155384900740, 31633151357185005713360, 31634156057221298170710, 31635133650124405411130, 31636129247006011027800,
  31637113207572079863200, 31638140371062119032250, 31639081227027109317070, 31640149125749492571260, 31641127843432434078570,
  31645145071098411489620, 31646112337458309966900, 31647126404490637477900, 31648151357185005713360, 31649078699391880811710,
  31650105405986504367450, 31651109254444713421750, 31652140796658263220230, 31653150179354649149520, 31654158288656811312820,
  31655133031370368230260, 31656141241175888928560, 31657125707691431098000, 31658145071098411489620, 31659113125267088498060,
  31660139570635042296890, 31661090534995901948890, 31662125611996920936480, 31663121337556772667100, 31664138478642122646980,
  31665101284221077405940, 31666165220128616912270, 31668127608127459976630, 31670133439590313432820, 31671156057221298170710,
  31672123553476378895000, 31673134539599265576090, 31675146502106847896340, 31676151357185005713360, 31678158288656811312820,
  31679172151600422511700, 31680124529861074534160, 31681138829555320759680, 31682165220128616912270, 31683104805683822782230,
  31684104781930842493160, 31686109906016129758120, 31687089856489232867160, 31689095212227167419000, 31691133031370368230260,
  31692161165477535830630, 31693172151600422511700, 31695172151600422511700, 31699129247006011027800, 31700158288656811312820,
  31704100297730266707550, 31705126200401921165820, 31706156057221298170710, 31709161165477535830630, 31712172151600422511700,
  31713121092145683505910, 31716109052417640246550, 31717165220128616912270, 31718136042421296069470, 31720172151600422511700,
  31721114130416668741100, 31722156057221298170710, 31726106872021246286210, 31727154234005730231160, 31729129384939232351160,
  31730165220128616912270, 31731158288656811312820, 31732165220128616912270, 31734172151600422511700, 31735120056738894097510,
  31738172151600422511700, 31740141706376045277480, 31742132833344095268460, 31744158288656811312820, 31747146502106847896340,
  31749172151600422511700, 31750172151600422511700, 31751112388091329532380, 31753172151600422511700, 31755129524801652098560,
  31756145761027126359140, 31757129247006011027800, 31759152692498931958590, 31762172151600422511700, 31766161165477535830630,
  31769161165477535830630, 31770165220128616912270, 31771151357185005713360, 31773154234005730231160, 31774145071098411489620,
  31775129956523370750650, 31776139962842173829710, 31777103194773445033030, 31778150179354649149520, 31779146502106847896340,
  31780120793616052009100, 31781145761027126359140, 31782130104674228602060, 31783115349874332341040, 31784108943917480005900,
  31785111941366929016460, 31786123788781352996930, 31787113125267088498060, 31788112312237615639820, 31789141241175888928560,
  31790143247882843550070, 31791116316637334694730, 31792154234005730231160, 31793154234005730231160, 31794120111533551743770,
  31795127265236725190330, 31797138139626605890160, 31798172151600422511700, 31799099255495208000040, 31800147302533924631700,
  31801123631297783315550, 31802118538678765417470, 31803135262805881372350, 31805154234005730231160, 31806109768354172116640,
  31807106276100274263750, 31808136042421296069470, 31809132639163236697430, 31810145071098411489620, 31811106872021246286210,
  31814165220128616912270, 31815165220128616912270, 31820105046369327987430, 31821099702184959141640, 31822172151600422511700,
  31825172151600422511700, 31827152692498931958590, 31828149125749492571260, 31829161165477535830630, 31831104781930842493160,
  31833172151600422511700, 31835154234005730231160, 31836141241175888928560, 31837139193231762468430, 31839132639163236697430,
  31840103660937596177140, 31843172151600422511700, 31844152692498931958590, 31845172151600422511700, 31847172151600422511700,
  31849134309704083329110, 31851172151600422511700, 31852129384939232351160, 31853172151600422511700, 31854125707691431098000,
  31856139962842173829710, 31858161165477535830630, 31859067481785173819695, 31860127265236725190330, 31861172151600422511700,
  31864172151600422511700, 31865154234005730231160, 31867076307764321751640, 31868134539599265576090, 31869122315534205428360,
  31874125611996920936480, 31880113290560108010170, 31881094525639937111020, 31882149125749492571260, 31883172151600422511700,
  31884132448681286990500, 31885122045247481549150, 31886127608127459976630, 31887132639163236697430, 31888125238121600220270,
  31889099079577274864330, 31890101746236520352160, 31891131208154800290710, 31892165220128616912270, 31893134539599265576090,
  31894124789615938566760, 31895093526628450206260, 31896099999200635210740, 31897137494241394514450, 31898172151600422511700,
  31899130104674228602060, 31900128584512155615800, 31901133439590313432820, 31902139570635042296890, 31903115113775675949710,
  31904113862144246409650, 31905115803704390819210, 31906140371062119032250, 31907148172647694528020, 31908103940525699947060,
  31909101967582431819710, 31910128976719287148600, 31911143819466981949550, 31912126000395254099120, 31913138829555320759680,
  31914107153730015953170, 31915144425713200113900, 31916099310252360559680, 31917132448681286990500, 31918090678717835445490,
  31919130407727723555350, 31920115147164688604850, 31921126933714652021320, 31922123709729557925810, 31923142707210630847300,
  31924137494241394514450, 31925161165477535830630, 31926149125749492571260, 31927129666648002018120, 31928137186524807846900]

def emitS18 : List Nat := [
  31929137811728377660250, 31930134084975524808530, 31931161165477535830630, 31932135015879755468640, 31933128844267019648410,
  31934089047450480628800, 31937130720253158596390, 31941148172647694528020, 31943143819466981949550, 31944158288656811312820,
  31946108783343111047300, 31948161165477535830630, 31949156057221298170710, 31957092614902636013740, 31958090404571597817100,
  31959148172647694528020, 31961128457121897841500, 31964121653040350016340, 31965172151600422511700, 31966107153730015953170,
  31967105218363739812230, 31968116583319805516330, 31971156057221298170710, 31975090678717835445490, 31976158288656811312820,
  31983117513282372255610, 31984172151600422511700, 31985172151600422511700, 31986133439590313432820, 31988172151600422511700,
  31989165220128616912270, 31990128584512155615800, 31992146502106847896340, 31994154234005730231160, 31995079854092767551650,
  31998114753671300719380, 32000161165477535830630, 32001165220128616912270, 32002118035139903961320, 32004069919468405545900,
  32005158288656811312820, 32006132078268570187000, 32007137494241394514450, 32008109886233729637070, 32009129110949490470010,
  32010132833344095268460, 32011096862907856089220, 32013165220128616912270, 32016112776238371687450, 32017115281846859113520,
  32018133650124405411130, 32019121092145683505910, 32020094424073257824300, 32021118872838734615910, 32022172151600422511700,
  32023165220128616912270, 32024172151600422511700, 32025154234005730231160, 32026080196287859286970, 32027114562582683738900,
  32028117386964903196610, 32029172151600422511700, 32030130880256572060800, 32031108350375053514070, 32032087960207913103230,
  32033129810535376539120, 32034099059476765584090, 32035158288656811312820, 32036142194277686971800, 32038131721087744166210,
  32039085718629740392080, 32040147302533924631700, 32041134774904239678030, 32042136598119807617580, 32043085414760540755000,
  32044134539599265576090, 32045138478642122646980, 32046132261759956868980, 32047092503091548038580, 32048101300957482986240,
  32049136598119807617580, 32050161165477535830630, 32051122453467426751700, 32052161165477535830630, 32053112567353492213900,
  32054108504092853992600, 32057111352268471555800, 32058125517209481391050, 32060121912795214048960, 32063111283853153388640,
  32064115911425360638330, 32065156057221298170710, 32066172151600422511700, 32067161165477535830630, 32068087767936313809050,
  32070172151600422511700, 32072154234005730231160, 32075161165477535830630, 32077161165477535830630, 32078109235909026928510,
  32079165220128616912270, 32080089827198837808350, 32082142194277686971800, 32085165220128616912270, 32089139193231762468430,
  32091119421604836874260, 32092147302533924631700, 32093172151600422511700, 32094109671171677427420, 32097110645572738048920,
  32098150179354649149520, 32102161165477535830630, 32103161165477535830630, 32104114468390464573990, 32105165220128616912270,
  32106165220128616912270, 32110117098285063188090, 32111165220128616912270, 32112172151600422511700, 32113095198569072876060,
  32114092752884658892900, 32115110455493097597160, 32118165220128616912270, 32119152692498931958590, 32121107459097254554000,
  32122156057221298170710, 32123172151600422511700, 32126112464524822658060, 32129099911352339653410, 32131165220128616912270,
  32133128207108875787320, 32134136042421296069470, 32135121978802054362470, 32136133650124405411130, 32137156057221298170710,
  32138141241175888928560, 32139107505717385612110, 32140172151600422511700, 32141126200401921165820, 32142130562769588915000,
  32143118633019087751050, 32144172151600422511700, 32145130880256572060800, 32146158288656811312820, 32147151357185005713360,
  32148114130416668741100, 32150144425713200113900, 32152099652345055331840, 32154172151600422511700, 32156116699825977716100,
  32157129247006011027800, 32158134309704083329110, 32160089988017098650150, 32162114070175522707280, 32163117814380386969320,
  32166145071098411489620, 32170172151600422511700, 32172127153503719209070, 32173097856391994647100, 32174156057221298170710,
  32175172151600422511700, 32176107615350433584800, 32177165220128616912270, 32178145761027126359140, 32180114070175522707280,
  32181152692498931958590, 32183172151600422511700, 32184131042861780778600, 32185120222031913609620, 32186100312893271887200,
  32187111352268471555800, 32188172151600422511700, 32189119681359700906850, 32190114499689394663270, 32191113290560108010170,
  32196121782074398375430, 32197172151600422511700, 32199172151600422511700, 32202085718629740392080, 32203116020319358631010,
  32208161165477535830630, 32210120676655654377180, 32215130720253158596390, 32216130720253158596390, 32217117990596400467510,
  32218082677440916010440, 32219144425713200113900, 32220161165477535830630, 32221117513282372255610, 32222139193231762468430,
  32223129810535376539120, 32224137811728377660250, 32225127043005357343200, 32226115947591765340210, 32227095939648794413270,
  32228151357185005713360, 32229131721087744166210, 32230161165477535830630, 32231172151600422511700, 32232130720253158596390,
  32233097063728716168940, 32234161165477535830630, 32235154234005730231160, 32236109690532767696090, 32237150179354649149520,
  32239108521319387107070, 32240118445220141235090, 32241141706376045277480, 32242124966611709560770, 32243136887995176350100,
  32244088730347789175820, 32245141706376045277480, 32246152692498931958590, 32247134539599265576090, 32248142707210630847300,
  32249143247882843550070, 32250172151600422511700, 32257172151600422511700, 32261172151600422511700, 32264131898083515160230,
  32265117428893685796960, 32266124276682994691260, 32267119734130271915300, 32268161165477535830630, 32269141241175888928560,
  32270134539599265576090, 32272105844766566088000, 32273129384939232351160, 32278152692498931958590, 32283172151600422511700,
  32285172151600422511700, 32286123868463049488700, 32287135015879755468640, 32288154234005730231160, 32289172151600422511700,
  32290156057221298170710, 32291070757311801709735, 32293172151600422511700, 32294151357185005713360, 32295139193231762468430,
  32299099207827429623500, 32302096023290118438160, 32303138139626605890160, 32305088675696352211140, 32306128713546203974880,
  32308161165477535830630, 32309130720253158596390, 32310152692498931958590, 32311117555745281070130, 32313134084975524808530,
  32314134309704083329110, 32315131376225983454520, 32316143819466981949550, 32317071467938465328100, 32318110904766513569670,
  32319154234005730231160, 32320105844766566088000, 32321101309336201532560, 32322150179354649149520, 32323108232429288585700,
  32324156057221298170710, 32325129110949490470010, 32326126301925635806000, 32327130562769588915000, 32328150179354649149520,
  32329152692498931958590, 32330139570635042296890, 32331143247882843550070, 32332145761027126359140, 32333127843432434078570,
  32334131208154800290710, 32335172151600422511700, 32336161165477535830630, 32337151357185005713360, 32338130407727723555350,
  32339154234005730231160, 32340116699825977716100, 32341116857309547397480, 32342098537846132738240, 32344116241730617403150,
  32345125707691431098000, 32346125146796764587550, 32347119576646702233900, 32348158288656811312820, 32349140796658263220230,
  32350091965345772054230, 32353087716133910032340, 32354134539599265576090, 32361102529165779849660, 32362096504030293454420,
  32364112211986149446030, 32365114562582683738900, 32367136887995176350100, 32368165220128616912270, 32370148172647694528020,
  32371172151600422511700, 32376165220128616912270, 32377134309704083329110, 32380158288656811312820, 32381133650124405411130,
  32382118872838734615910, 32386118824412489858030, 32391141706376045277480, 32392126301925635806000, 32394150179354649149520,
  32396102193938859463210, 32397172151600422511700, 32398135775738825247870, 32399098762719084122920, 32403121847221208587350,
  32404149125749492571260, 32406172151600422511700, 32407172151600422511700, 32408123173202423002600, 32411125707691431098000,
  32412123709729557925810, 32415156057221298170710, 32416114753671300719380, 32417132078268570187000, 32418076049703009524600,
  32419118035139903961320, 32420112162234803044890, 32421137494241394514450, 32422069919468405545900, 32423080196287859286970,
  32424109886233729637070, 32425150179354649149520, 32426105230762997445440, 32427129110949490470010, 32428108521319387107070,
  32429117386964903196610, 32430141706376045277480, 32431094424073257824300, 32432118872838734615910, 32433105456619523932920,
  32434095359086162981120, 32435096303869646389730, 32436172151600422511700, 32437088675696352211140, 32438131042861780778600,
  32439114562582683738900, 32440089918011427719140, 32441096862907856089220, 32442109632561590852830, 32443137494241394514450,
  32445112776238371687450, 32446121092145683505910, 32447082677440916010440, 32448125517209481391050, 32449119787180794212220,
  32450124615698511448070, 32451088730347789175820, 32452087767936313809050, 32453122453467426751700, 32454088285312208560520,
  32455101825357812231660, 32456094500151393150400, 32457105844766566088000, 32458113262820839182900, 32459121912795214048960,
  32460115911425360638330, 32461111352268471555800, 32462134309704083329110, 32463072608843228829390, 32464111283853153388640,
  32465099911352339653410, 32466114468390464573990, 32467089827198837808350, 32468114070175522707280, 32469091965345772054230,
  32471109235909026928510, 32472096504030293454420, 32473060663658218961300, 32474150179354649149520, 32475110455493097597160,
  32476110645572738048920, 32477087398310549336330, 32478109671171677427420, 32479095198569072876060, 32480114594178286642600,
  32481130562769588915000, 32482107459097254554000, 32483087716133910032340, 32484165220128616912270, 32485118633019087751050,
  32486119421604836874260, 32487094563994980935090, 32488133439590313432820, 32489122735176196418670, 32490120676655654377180,
  32491114499689394663270, 32493102193938859463210, 32494100312893271887200, 32495116020319358631010, 32496119681359700906850,
  32497115983889445846000, 32498121782074398375430, 32499102529165779849660, 32500097856391994647100, 32501113290560108010170,
  32502127153503719209070, 32503111193354798189470, 32504114070175522707280, 32505151357185005713360, 32506120222031913609620,
  32507117814380386969320, 32508116699825977716100, 32509111352268471555800, 32510107615350433584800, 32511089988017098650150,
  32512114070175522707280, 32513098023960248246080, 32514117990596400467510, 32515118680525115337030, 32516130720253158596390,
  32517109690532767696090, 32518123709729557925810, 32519117220985989106230, 32520124966611709560770, 32521117513282372255610,
  32522165220128616912270, 32523134539599265576090, 32524122806861091204790, 32525134309704083329110, 32526110817619992545230,
  32527130720253158596390, 32528172151600422511700, 32529141706376045277480, 32530119734130271915300, 32531097063728716168940,
  32532137811728377660250, 32533117555745281070130, 32534090913057791452590, 32535127043005357343200, 32536095939648794413270,
  32537117428893685796960, 32538101958633885361270, 32539135015879755468640, 32540133865186457620770, 32541099207827429623500,
  32543123868463049488700, 32544098762719084122920, 32545122951791164230460, 32546124276682994691260, 32547129384939232351160,
  32548133650124405411130, 32549134084975524808530, 32550130720253158596390, 32551128713546203974880, 32552121847221208587350,
  32553096023290118438160, 32554126301925635806000, 32555129110949490470010, 32556126301925635806000, 32557127725087857608560,
  32558116857309547397480, 32559130407727723555350, 32560114785877447719800, 32561118872838734615910, 32562165220128616912270,
  32563165220128616912270, 32564110330751355345400, 32565149125749492571260, 32566127843432434078570, 32567172151600422511700,
  32568105268053283044100, 32570093895153100311820, 32572165220128616912270, 32573112438982024607100, 32578134774904239678030,
  32580121589142369028630, 32581122806861091204790, 32583172151600422511700, 32585165220128616912270, 32588134774904239678030,
  32589146502106847896340, 32592106166510136366550, 32593083320745178465930, 32596125423312077892660, 32597106414798752905270,
  32599089909965296133100, 32600141706376045277480, 32602095895649701187170, 32605165220128616912270, 32607137811728377660250,
  32609119787180794212220, 32610080641451363598030, 32611165220128616912270, 32614172151600422511700, 32616138829555320759680,
  32617100866640965711360, 32618088778114777539960, 32620172151600422511700, 32622078964137964312030, 32624095895649701187170,
  32625137186524807846900, 32626107710287855507310, 32628133031370368230260, 32629083548027689241490, 32631136042421296069470]

def emitS19 : List Nat := [
  32633135015879755468640, 32636144425713200113900, 32637133233397441405450, 32638140371062119032250, 32639138829555320759680,
  32641126404490637477900, 32645089909965296133100, 32646133031370368230260, 32648126404490637477900, 32650092154814627517220,
  32651165220128616912270, 32652109070616007416420, 32653132833344095268460, 32654074854903060177780, 32657144425713200113900,
  32659165220128616912270, 32660135262805881372350, 32661154234005730231160, 32666128207108875787320, 32667161165477535830630,
  32669130407727723555350, 32670104307029796135280, 32671126933714652021320, 32673119894133685379700, 32674172151600422511700,
  32675130104674228602060, 32676081223652341300330, 32677126933714652021320, 32679130104674228602060, 32680119894133685379700,
  32681165220128616912270, 32682135262805881372350, 32687118776219625498540, 32688136042421296069470, 32689165220128616912270,
  32690130880256572060800, 32691165220128616912270, 32694121912795214048960, 32696143819466981949550, 32697106180143403645210,
  32700149125749492571260, 32701101641705951831260, 32703138829555320759680, 32704148172647694528020, 32705097563973498702130,
  32706115768053729174250, 32707165220128616912270, 32708146502106847896340, 32709098036037544400080, 32712158288656811312820,
  32713165220128616912270, 32714127608127459976630, 32715142707210630847300, 32716142707210630847300, 32718125611996920936480,
  32721154234005730231160, 32722101118379797250600, 32723172151600422511700, 32724116020319358631010, 32725130880256572060800,
  32728109235909026928510, 32729172151600422511700, 32730137811728377660250, 32731158288656811312820, 32735119319563135131830,
  32736102175640592692450, 32737141706376045277480, 32739154234005730231160, 32741156057221298170710, 32742127843432434078570,
  32745147302533924631700, 32748137811728377660250, 32750149125749492571260, 32752119068923448499660, 32753126508118507833360,
  32755134309704083329110, 32761109235909026928510, 32763087412919755733080, 32764100535380393119840, 32765172151600422511700,
  32768112162234803044890, 32769067981604775237450, 32770130407727723555350, 32771085201554495188660, 32772126099898562630800,
  32773071495111241356280, 32774121275637070187870, 32778154234005730231160, 32779154234005730231160, 32780053429320883639300,
  32781101275863366931990, 32782172151600422511700, 32784100566460449218520, 32785148172647694528020, 32786138829555320759680,
  32787143819466981949550, 32788172151600422511700, 32789106974887693388960, 32790152692498931958590, 32791108149025969423500,
  32792131376225983454520, 32793105871186660716390, 32796138478642122646980, 32800165220128616912270, 32801134539599265576090,
  32802150179354649149520, 32803161165477535830630, 32804172151600422511700, 32805172151600422511700, 32806136598119807617580,
  32807140796658263220230, 32808138829555320759680, 32809150179354649149520, 32810131898083515160230, 32812140796658263220230,
  32816152692498931958590, 32817158288656811312820, 32819088618985425172990, 32821158288656811312820, 32822102066548601688910,
  32823140796658263220230, 32824108765659640479900, 32827115281846859113520, 32828172151600422511700, 32829116392109391048550,
  32831123476255917955900, 32832145761027126359140, 32834125056298409388380, 32835148172647694528020, 32836154234005730231160,
  32838126200401921165820, 32842104997766559164900, 32843116093579759551740, 32844085094975634547460, 32845165220128616912270,
  32850138478642122646980, 32852091821505436545050, 32854089213604334043540, 32856109217407634046900, 32858093943191623438280,
  32859149125749492571260, 32862087503133312071440, 32866161165477535830630, 32867138139626605890160, 32868145761027126359140,
  32873152692498931958590, 32874118306649794620820, 32879091821505436545050, 32880118306649794620820, 32881172151600422511700,
  32882075529163680610400, 32883108765659640479900, 32885152692498931958590, 32886125056298409388380, 32887085094975634547460,
  32889165220128616912270, 32893064836448269612800, 32894116093579759551740, 32895133031370368230260, 32896138829555320759680,
  32899105330514448013620, 32900151357185005713360, 32901172151600422511700, 32902110187159144566510, 32903118491840272293200,
  32905084078377747401020, 32907111820738204523700, 32908101275863366931990, 32911172151600422511700, 32912156057221298170710,
  32915132078268570187000, 32917172151600422511700, 32918109070616007416420, 32919172151600422511700, 32920111490519521474240,
  32921145761027126359140, 32922101589847581507620, 32923123868463049488700, 32924140796658263220230, 32925097679916826511300,
  32926161165477535830630, 32927127153503719209070, 32928103014226915914870, 32929081681624684711630, 32930111148410902311080,
  32932118124826603788920, 32933097455058693190430, 32934150179354649149520, 32937096676583594362050, 32938125056298409388380,
  32939137811728377660250, 32941137186524807846900, 32942129666648002018120, 32943092168246462981890, 32945135262805881372350,
  32946107289992533070820, 32948125611996920936480, 32951133439590313432820, 32952161165477535830630, 32954099702184959141640,
  32956135775738825247870, 32957115384062399828900, 32958099687919621487100, 32959102567116489535160, 32960106303686498654550,
  32961107838289603176940, 32962128844267019648410, 32963099296534937283860, 32964121912795214048960, 32966101085539045238700,
  32968107214062023994860, 32972080196287859286970, 32973126718652599811680, 32974104829493357839660, 32978172151600422511700,
  32982098788743822298740, 32983138478642122646980, 32985139193231762468430, 32986113318376537628930, 32987139962842173829710,
  32988084761041194204460, 32989141241175888928560, 32990111059124594868060, 32992165220128616912270, 32993091113633292693790,
  32996108469728559006800, 32997130562769588915000, 32998172151600422511700, 32999127153503719209070, 33000134309704083329110,
  33001135775738825247870, 33002097540945278968900, 33003122806861091204790, 33004138139626605890160, 33005151357185005713360,
  33007111607206959818010, 33008120166630109853450, 33009126200401921165820, 33011141241175888928560, 33012138829555320759680,
  33013150179354649149520, 33014103735445657735800, 33016094814764714752700, 33018113374242604715330, 33020165220128616912270,
  33021057737735444632590, 33022165220128616912270, 33025142194277686971800, 33026106974887693388960, 33027149125749492571260,
  33029107838289603176940, 33030107305248066159200, 33032091795573493325900, 33033091795573493325900, 33034093899147508193970,
  33035158288656811312820, 33036161165477535830630, 33037140371062119032250, 33038158288656811312820, 33039103461455915854650,
  33040124966611709560770, 33041092185061667885650, 33042143247882843550070, 33043115248005879271100, 33044149125749492571260,
  33046114468390464573990, 33048128713546203974880, 33050084422399496247050, 33051122806861091204790, 33054152692498931958590,
  33058172151600422511700, 33061147302533924631700, 33063165220128616912270, 33065149125749492571260, 33067089782099941897170,
  33068158288656811312820, 33069172151600422511700, 33071132833344095268460, 33073089782099941897170, 33074130880256572060800,
  33079172151600422511700, 33080079497634645269100, 33081106303686498654550, 33086104183363239763160, 33090165220128616912270,
  33092145761027126359140, 33094130407727723555350, 33096132078268570187000, 33097141706376045277480, 33098107615350433584800,
  33099118872838734615910, 33100111014778624189400, 33102099687919621487100, 33103172151600422511700, 33104109347642032909760,
  33105108677708325951610, 33107128457121897841500, 33108101351335423285820, 33109110581810566656160, 33110134309704083329110,
  33111158288656811312820, 33112145761027126359140, 33113147302533924631700, 33114136316411037950620, 33117138139626605890160,
  33120145761027126359140, 33121150179354649149520, 33125111772891223290340, 33126161165477535830630, 33127139962842173829710,
  33129145761027126359140, 33130172151600422511700, 33131102567116489535160, 33132172151600422511700, 33133124276682994691260,
  33134109709931415874350, 33136090455404805273220, 33137142707210630847300, 33139084422399496247050, 33140142707210630847300,
  33143147302533924631700, 33144172151600422511700, 33145098367763292544570, 33146110166813257588640, 33147107108718687145250,
  33148145761027126359140, 33149172151600422511700, 33150100731234675443680, 33151086705462552589430, 33152125238121600220270,
  33154146502106847896340, 33155172151600422511700, 33157161165477535830630, 33158165220128616912270, 33159172151600422511700,
  33160128084407949869180, 33162119421604836874260, 33164158288656811312820, 33167112337458309966900, 33169144425713200113900,
  33170158288656811312820, 33173145761027126359140, 33176131376225983454520, 33177165220128616912270, 33178118124826603788920,
  33179111467344540070620, 33180096324215533367600, 33181104039156636498780, 33184103735445657735800, 33187172151600422511700,
  33189113891599348707200, 33190143819466981949550, 33192113600881200487440, 33193172151600422511700, 33197151357185005713360,
  33202133233397441405450, 33203105871186660716390, 33204165220128616912270, 33205135775738825247870, 33209172151600422511700,
  33210124029756868787540, 33211121912795214048960, 33213172151600422511700, 33214140371062119032250, 33215115248005879271100,
  33216112211986149446030, 33217122951791164230460, 33218097838603670952690, 33219131042861780778600, 33222143819466981949550,
  33223152692498931958590, 33225079497634645269100, 33226123248109140294190, 33228161165477535830630, 33229124966611709560770,
  33231144425713200113900, 33233134309704083329110, 33240107615350433584800, 33242097540945278968900, 33244145071098411489620,
  33246151357185005713360, 33247103461455915854650, 33248149125749492571260, 33249165220128616912270, 33250145071098411489620,
  33251085729213618607100, 33253102586145990996030, 33255122735176196418670, 33256092742202799233800, 33258068063017166320160,
  33260133031370368230260, 33261097047294858731640, 33262161165477535830630, 33267065298736115605360, 33268090140483978084130,
  33274130720253158596390, 33275118398816345670070, 33276120734964857485120, 33277111398140111624870, 33278152692498931958590,
  33279154234005730231160, 33280116316637334694730, 33281152692498931958590, 33282113207572079863200, 33283131376225983454520,
  33284149125749492571260, 33285112829148548031610, 33286102701089785253380, 33287052260997821049670, 33288088501860638124460,
  33289156057221298170710, 33290084120363114219590, 33292100589834047705560, 33293099173917597197910, 33294172151600422511700,
  33296121847221208587350, 33298110187159144566510, 33299152692498931958590, 33300113803493051885670, 33302154234005730231160,
  33303172151600422511700, 33307126718652599811680, 33308112829148548031610, 33310093049363351538280, 33311103225184010790830,
  33312172151600422511700, 33313144425713200113900, 33315152692498931958590, 33317131376225983454520, 33320140371062119032250,
  33322102378787006204240, 33323132639163236697430, 33324091116657638702030, 33325150179354649149520, 33327138829555320759680,
  33328090264709178069700, 33329100267473057542190, 33330165220128616912270, 33331139962842173829710, 33332136316411037950620,
  33333101887332335515360, 33334126508118507833360, 33335120793616052009100, 33336139193231762468430, 33337082508480941266580,
  33338152692498931958590, 33339131376225983454520, 33342133865186457620770, 33348125423312077892660, 33351103629174731992930,
  33353131898083515160230, 33355136598119807617580, 33356135015879755468640, 33357165220128616912270, 33358172151600422511700,
  33359134084975524808530, 33360172151600422511700, 33364143819466981949550, 33368091241450005406400, 33369100267473057542190,
  33370138139626605890160, 33373172151600422511700, 33375146502106847896340, 33380152692498931958590, 33382090264709178069700,
  33384140371062119032250, 33387131376225983454520, 33390124276682994691260, 33391101200956649640400, 33392121525650092242050,
  33393172151600422511700, 33394083747246029846030, 33395106004344420474100, 33396172151600422511700, 33399106004344420474100,
  33401128457121897841500, 33402103215036876485350, 33403172151600422511700, 33405126000395254099120, 33406107229202072307000,
  33407117641215886854710, 33410087342159835100550, 33412129247006011027800, 33416133865186457620770, 33417135262805881372350,
  33418127043005357343200, 33419125611996920936480, 33421130880256572060800, 33422130720253158596390, 33423129666648002018120,
  33424127378232277729650, 33425134539599265576090, 33426107214062023994860, 33427156057221298170710, 33428172151600422511700,
  33431128084407949869180, 33432143819466981949550, 33433094100929979926830, 33434172151600422511700, 33436110560646537592380]

def emitS20 : List Nat := [
  33437106857412039889470, 33439124702279138879210, 33440140796658263220230, 33441128844267019648410, 33443165220128616912270,
  33444127492519235965890, 33445108099315842203300, 33446122664001518730040, 33448129384939232351160, 33449134539599265576090,
  33450127492519235965890, 33451131376225983454520, 33452114689568517110190, 33453126508118507833360, 33454135015879755468640,
  33455104127652789268600, 33456115875389285605340, 33457077650156780676720, 33458141706376045277480, 33459104582276530036180,
  33460136887995176350100, 33461152692498931958590, 33463121152936144269730, 33464112909042448366400, 33465129666648002018120,
  33466161165477535830630, 33467128713546203974880, 33468172151600422511700, 33469110085841155262440, 33470128976719287148600,
  33473125330288151269520, 33476127378232277729650, 33479123868463049488700, 33480135515983961215250, 33482137186524807846900,
  33483128207108875787320, 33484128713546203974880, 33485114100250733346830, 33486133650124405411130, 33487089544086875506590,
  33489109671171677427420, 33490147302533924631700, 33491141706376045277480, 33492108555861735787950, 33493101985503583569520,
  33494165220128616912270, 33495101176111916363800, 33496152692498931958590, 33499116167380832527960, 33500154234005730231160,
  33502115315802749124900, 33503114721568544416890, 33505128844267019648410, 33506165220128616912270, 33507131042861780778600,
  33508128084407949869180, 33509074741914192128185, 33510087396225261037670, 33511133650124405411130, 33515117470999011160400,
  33517161165477535830630, 33519102313700769930380, 33520158288656811312820, 33521082818915636147550, 33522172151600422511700,
  33524130720253158596390, 33527116857309547397480, 33528130407727723555350, 33529125804310540215360, 33530146502106847896340,
  33531114562582683738900, 33533161165477535830630, 33534148172647694528020, 33537142194277686971800, 33538112935816226073560,
  33539104781930842493160, 33540119948042171728470, 33541106345209049662230, 33542150179354649149520, 33543161165477535830630,
  33544165220128616912270, 33545123709729557925810, 33547172151600422511700, 33548149125749492571260, 33550100162288015629970,
  33551129666648002018120, 33552137494241394514450, 33553156057221298170710, 33555135015879755468640, 33556147302533924631700,
  33557142194277686971800, 33559118169973407334190, 33562133439590313432820, 33563156057221298170710, 33564123788781352996930,
  33565165220128616912270, 33567172151600422511700, 33572136598119807617580, 33575114562582683738900, 33576108452590594229450,
  33579114818187653534260, 33580109479594937098100, 33581141241175888928560, 33583151357185005713360, 33585141241175888928560,
  33586109846785946726900, 33588140371062119032250, 33589126933714652021320, 33590079563152612153740, 33592109555785781862480,
  33593132078268570187000, 33594156057221298170710, 33596161165477535830630, 33600125901872289669000, 33602172151600422511700,
  33603114070175522707280, 33604172151600422511700, 33605172151600422511700, 33606093219611727065640, 33607144425713200113900,
  33608165220128616912270, 33609085292372475604470, 33610093219611727065640, 33615158288656811312820, 33616111965668277549370,
  33617140796658263220230, 33618102681840501157530, 33620131547170317047520, 33622151357185005713360, 33623172151600422511700,
  33624172151600422511700, 33625165220128616912270, 33626122179477684870560, 33627172151600422511700, 33628151357185005713360,
  33629144425713200113900, 33630135775738825247870, 33631140371062119032250, 33632143247882843550070, 33633101259168872236580,
  33634172151600422511700, 33635101167844036603840, 33636105292990951828130, 33637134084975524808530, 33638138139626605890160,
  33639135015879755468640, 33640128713546203974880, 33641127043005357343200, 33642132078268570187000, 33643104273150599415910,
  33644165220128616912270, 33647081786969802862810, 33648142194277686971800, 33655097803121670391720, 33656172151600422511700,
  33659132448681286990500, 33660121782074398375430, 33661143247882843550070, 33666172151600422511700, 33669129384939232351160,
  33670120971662298344160, 33673121275637070187870, 33674098367763292544570, 33675156057221298170710, 33678106915977361016600,
  33682135515983961215250, 33683143819466981949550, 33685172151600422511700, 33686100162288015629970, 33688137494241394514450,
  33689165220128616912270, 33691152692498931958590, 33692158288656811312820, 33693165220128616912270, 33694137494241394514450,
  33696145761027126359140, 33697172151600422511700, 33698122179477684870560, 33699158288656811312820, 33703165220128616912270,
  33704142194277686971800, 33705147302533924631700, 33706136598119807617580, 33707091873571938808600, 33710137811728377660250,
  33712152692498931958590, 33713103735445657735800, 33714098691498323378790, 33715138829555320759680, 33716165220128616912270,
  33718152692498931958590, 33719082366256321678520, 33720131547170317047520, 33721123709729557925810, 33722114375077190285150,
  33724134539599265576090, 33725118970400484069550, 33728129524801652098560, 33729129524801652098560, 33730165220128616912270,
  33731145071098411489620, 33733139962842173829710, 33734172151600422511700, 33735124029756868787540, 33737156057221298170710,
  33738105482032498219650, 33739165220128616912270, 33740100995779160667180, 33741165220128616912270, 33743127043005357343200,
  33745107244365077486650, 33747147302533924631700, 33748135262805881372350, 33750147302533924631700, 33752140796658263220230,
  33754172151600422511700, 33756081621754810511950, 33757144425713200113900, 33758172151600422511700, 33759140371062119032250,
  33760149125749492571260, 33761141706376045277480, 33765148172647694528020, 33769130562769588915000, 33770133650124405411130,
  33775088340156952982110, 33776132639163236697430, 33777111607206959818010, 33778102576626713742200, 33780149125749492571260,
  33784152692498931958590, 33785141241175888928560, 33787149125749492571260, 33788165220128616912270, 33789136316411037950620,
  33790154234005730231160, 33793137811728377660250, 33795128207108875787320, 33796136316411037950620, 33798142707210630847300,
  33799128713546203974880, 33802103735445657735800, 33803142194277686971800, 33804121214098414444100, 33805117386964903196610,
  33806132833344095268460, 33807150179354649149520, 33808110392927721454100, 33809139193231762468430, 33810130255053002247450,
  33816126933714652021320, 33820128976719287148600, 33821117017312960861890, 33827161165477535830630, 33828134774904239678030,
  33829085139800147219180, 33830131898083515160230, 33831104194542670776580, 33832103024172217579950, 33833161165477535830630,
  33836069267162582384200, 33841112829148548031610, 33845165220128616912270, 33847134309704083329110, 33848150179354649149520,
  33850172151600422511700, 33852111014778624189400, 33853081353840402961060, 33856158288656811312820, 33861172151600422511700,
  33862132448681286990500, 33863158288656811312820, 33865087776596197441830, 33870161165477535830630, 33873118728257902863610,
  33876172151600422511700, 33878161165477535830630, 33879084875438639301050, 33881156057221298170710, 33883111892940684258570,
  33884147302533924631700, 33887150179354649149520, 33889114251998713539180, 33891103084052636026180, 33894123868463049488700,
  33897156057221298170710, 33899161165477535830630, 33900096820012347956080, 33901133031370368230260, 33903172151600422511700,
  33905106498950722158110, 33907156057221298170710, 33908161165477535830630, 33909120333764919590870, 33910151357185005713360,
  33911105292990951828130, 33912165220128616912270, 33913165220128616912270, 33914154234005730231160, 33918172151600422511700,
  33920123631297783315550, 33922110774329881649380, 33927172151600422511700, 33928172151600422511700, 33929158288656811312820,
  33931102905476462026120, 33932144425713200113900, 33933165220128616912270, 33934138478642122646980, 33936152692498931958590,
  33940138829555320759680, 33941141706376045277480, 33942165220128616912270, 33943151357185005713360, 33944172151600422511700,
  33945091985121651933700, 33946172151600422511700, 33948110455493097597160, 33950129384939232351160, 33951161165477535830630,
  33953172151600422511700, 33954165220128616912270, 33958172151600422511700, 33960165220128616912270, 33961165220128616912270,
  33962132448681286990500, 33963148172647694528020, 33965165220128616912270, 33967145761027126359140, 33969136042421296069470,
  33970108099315842203300, 33972128584512155615800, 33975158288656811312820, 33976099255495208000040, 33977143819466981949550,
  33979161165477535830630, 33980114100250733346830, 33981136316411037950620, 33982158288656811312820, 33983106741300430612680,
  33984132078268570187000, 33985154234005730231160, 33986165220128616912270, 33988111772891223290340, 33993104570655378234410,
  33994152692498931958590, 33995088782904049662150, 33997145071098411489620, 33998165220128616912270, 33999161165477535830630,
  34000154234005730231160, 34001134309704083329110, 34003140796658263220230, 34005142194277686971800, 34006130407727723555350,
  34012172151600422511700, 34013093009077635087300, 34014172151600422511700, 34015119019540632093840, 34016172151600422511700,
  34018172151600422511700, 34019165220128616912270, 34021172151600422511700, 34022133031370368230260, 34023123631297783315550,
  34024152692498931958590, 34025133439590313432820, 34028109052417640246550, 34030098691498323378790, 34031125330288151269520,
  34032154234005730231160, 34036134539599265576090, 34044125146796764587550, 34045151357185005713360, 34047139193231762468430,
  34060172151600422511700, 34062172151600422511700, 34065128976719287148600, 34067118215324958988100, 34068116468155384900740,
  34069148172647694528020, 34071127043005357343200, 34072172151600422511700, 34074121214098414444100, 34075135515983961215250,
  34078172151600422511700, 34079149125749492571260, 34081100770870082068240, 34083102905476462026120, 34085106498950722158110,
  34086156057221298170710, 34088165220128616912270, 34090125611996920936480, 34091126404490637477900, 34092127265236725190330,
  34093150179354649149520, 34095172151600422511700, 34098172151600422511700, 34101151357185005713360, 34103119524698533462870,
  34104147302533924631700, 34105158288656811312820, 34106142194277686971800, 34107149125749492571260, 34108124276682994691260,
  34109118215324958988100, 34113128713546203974880, 34115107967951063149600, 34117172151600422511700, 34118172151600422511700,
  34120137186524807846900, 34121117220985989106230, 34122120793616052009100, 34123172151600422511700, 34124172151600422511700,
  34125144425713200113900, 34126135775738825247870, 34130165220128616912270, 34131131547170317047520, 34133131547170317047520,
  34134134309704083329110, 34136172151600422511700, 34137129384939232351160, 34142139962842173829710, 34145172151600422511700,
  34146158288656811312820, 34148148172647694528020, 34152119168426757031350, 34153172151600422511700, 34154110560646537592380,
  34156143247882843550070, 34157104194542670776580, 34162100058197856482620, 34164120561047430366430, 34167165220128616912270,
  34169142707210630847300, 34170142707210630847300, 34171172151600422511700, 34174122384262998305960, 34176172151600422511700,
  34180092998118729880940, 34181135775738825247870, 34183104194542670776580, 34184161165477535830630, 34186119019540632093840,
  34187172151600422511700, 34188128084407949869180, 34191142194277686971800, 34192172151600422511700, 34193156057221298170710,
  34196137811728377660250, 34198172151600422511700, 34199156057221298170710, 34200172151600422511700, 34201140796658263220230,
  34203106960127543107770, 34204132078268570187000, 34207152692498931958590, 34209134309704083329110, 34210161165477535830630,
  34212148172647694528020, 34213165220128616912270, 34214111965668277549370, 34216134774904239678030, 34217103024172217579950,
  34218106317508200924070, 34219165220128616912270, 34222129110949490470010, 34223125611996920936480, 34224119524698533462870,
  34227150179354649149520, 34230172151600422511700, 34231139962842173829710, 34232165220128616912270, 34233130255053002247450,
  34234143247882843550070, 34237150179354649149520, 34238156057221298170710, 34241137494241394514450, 34242139570635042296890,
  34249105443937214052980, 34251137186524807846900, 34252128844267019648410, 34253093009077635087300, 34254127043005357343200,
  34255081304962783629900, 34256139962842173829710, 34259121031722538946290, 34261088687551718152160, 34267150179354649149520,
  34268126508118507833360, 34269103215036876485350, 34276108316534073671650, 34277165220128616912270, 34278151357185005713360,
  34280150179354649149520, 34281106583816860931300, 34282129110949490470010, 34294135515983961215250, 34297124276682994691260]

def emitS21 : List Nat := [
  34298142194277686971800, 34299105380765810040360, 34303138829555320759680, 34308100058197856482620, 34309132078268570187000,
  34310165220128616912270, 34311089544086875506590, 34314120561047430366430, 34315141706376045277480, 34317165220128616912270,
  34319138478642122646980, 34321135775738825247870, 34325172151600422511700, 34326139570635042296890, 34327156057221298170710,
  34328149125749492571260, 34329140371062119032250, 34330121031722538946290, 34331172151600422511700, 34333161165477535830630,
  34334158288656811312820, 34336161165477535830630, 34338129666648002018120, 34343150179354649149520, 34344165220128616912270,
  34345138829555320759680, 34349099781010161264340, 34360112989579796437360, 34362172151600422511700, 34364135515983961215250,
  34367117017312960861890, 34368165220128616912270, 34369129810535376539120, 34382087294575179263050, 34383103064052629359500,
  34384121912795214048960, 34385107305248066159200, 34387151357185005713360, 34388121717349253319260, 34389070898498103682500,
  34390172151600422511700, 34392105156597020894940, 34394088934952351161700, 34395156057221298170710, 34396103064052629359500,
  34398108486895945197330, 34399172151600422511700, 34400165220128616912270, 34401172151600422511700, 34402124877722235388320,
  34407098499799162301600, 34409154234005730231160, 34411091863788797640250, 34412129247006011027800, 34414129384939232351160,
  34415129247006011027800, 34417121525650092242050, 34421172151600422511700, 34425104006171449912140, 34426135775738825247870,
  34427117858144132967300, 34428120676655654377180, 34429076444914078383550, 34430099788206994968270, 34431134309704083329110,
  34432111941366929016460, 34433110560646537592380, 34434123248109140294190, 34435147302533924631700, 34439143819466981949550,
  34442115281846859113520, 34443130407727723555350, 34444109925837741798030, 34445131208154800290710, 34447172151600422511700,
  34448132833344095268460, 34449132639163236697430, 34450172151600422511700, 34451129384939232351160, 34453112645174896634450,
  34454165220128616912270, 34460124193694966544310, 34461129666648002018120, 34462172151600422511700, 34464137811728377660250,
  34465128844267019648410, 34466165220128616912270, 34467136887995176350100, 34468126825605490979160, 34469147302533924631700,
  34470124966611709560770, 34471120793616052009100, 34472131898083515160230, 34473128713546203974880, 34474138139626605890160,
  34475150179354649149520, 34476129247006011027800, 34479135515983961215250, 34480134774904239678030, 34481135015879755468640,
  34483149125749492571260, 34484123631297783315550, 34485143247882843550070, 34486128844267019648410, 34489133439590313432820,
  34490141241175888928560, 34496123173202423002600, 34497172151600422511700, 34499156057221298170710, 34500131721087744166210,
  34502121653040350016340, 34503094195135059165780, 34504172151600422511700, 34505127265236725190330, 34506118633019087751050,
  34507089562195792627120, 34510136598119807617580, 34511125330288151269520, 34512135015879755468640, 34513130407727723555350,
  34514154234005730231160, 34515117641215886854710, 34516111990028825528190, 34518145071098411489620, 34520128976719287148600,
  34521110187159144566510, 34523108282807228885270, 34524138478642122646980, 34526132078268570187000, 34527110413739383492350,
  34529145071098411489620, 34532122384262998305960, 34537123788781352996930, 34538165220128616912270, 34540151357185005713360,
  34541118872838734615910, 34542101607103841182300, 34544128976719287148600, 34545136316411037950620, 34546132639163236697430,
  34547133650124405411130, 34548130255053002247450, 34552139570635042296890, 34553114130416668741100, 34554136316411037950620,
  34555121092145683505910, 34558110861098321906260, 34560093495882845663820, 34562100715424395470500, 34563126508118507833360,
  34565172151600422511700, 34566129247006011027800, 34567133233397441405450, 34568151357185005713360, 34569161165477535830630,
  34570149125749492571260, 34571150179354649149520, 34573152692498931958590, 34574158288656811312820, 34578129666648002018120,
  34579136598119807617580, 34581121092145683505910, 34583132078268570187000, 34584152692498931958590, 34586135515983961215250,
  34587165220128616912270, 34588111537031233231550, 34590172151600422511700, 34593110166813257588640, 34594146502106847896340,
  34595165220128616912270, 34597122315534205428360, 34600172151600422511700, 34601149125749492571260, 34606146502106847896340,
  34608113832775649676550, 34609131721087744166210, 34612165220128616912270, 34615125901872289669000, 34617131721087744166210,
  34618165220128616912270, 34619149125749492571260, 34621139962842173829710, 34622165220128616912270, 34623149125749492571260,
  34624156057221298170710, 34626172151600422511700, 34627172151600422511700, 34631114313348599214350, 34632161165477535830630,
  34633109328932953551640, 34636125423312077892660, 34638118124826603788920, 34643172151600422511700, 34645111941366929016460,
  34647116778257752326360, 34649154234005730231160, 34650172151600422511700, 34652172151600422511700, 34655156057221298170710,
  34656127378232277729650, 34659165220128616912270, 34660161165477535830630, 34661172151600422511700, 34662099788206994968270,
  34664145071098411489620, 34666172151600422511700, 34670139962842173829710, 34671172151600422511700, 34672132448681286990500,
  34673165220128616912270, 34674172151600422511700, 34676165220128616912270, 34678116204486626493320, 34679172151600422511700,
  34680132078268570187000, 34683172151600422511700, 34684151357185005713360, 34685134774904239678030, 34686151357185005713360,
  34688172151600422511700, 34690146502106847896340, 34691154234005730231160, 34692133650124405411130, 34693113318376537628930,
  34696131721087744166210, 34699152692498931958590, 34701108452590594229450, 34704139962842173829710, 34706132261759956868980,
  34707172151600422511700, 34711152692498931958590, 34712165220128616912270, 34715123868463049488700, 34718123248109140294190,
  34719132078268570187000, 34720154234005730231160, 34722161165477535830630, 34728115214279034484730, 34731126404490637477900,
  34733111306606291760000, 34735123323581196648000, 34736172151600422511700, 34737165220128616912270, 34738158288656811312820,
  34739148172647694528020, 34741161165477535830630, 34746106513045157190440, 34747151357185005713360, 34748152692498931958590,
  34749154234005730231160, 34750115626708619825220, 34751152692498931958590, 34752131208154800290710, 34753150179354649149520,
  34756128976719287148600, 34758120734964857485120, 34760161165477535830630, 34762137186524807846900, 34763148172647694528020,
  34766115214279034484730, 34767172151600422511700, 34769158288656811312820, 34770114221464338670270, 34773161165477535830630,
  34776152692498931958590, 34778161165477535830630, 34779127378232277729650, 34780161165477535830630, 34781145071098411489620,
  34782172151600422511700, 34783142707210630847300, 34784122315534205428360, 34786133233397441405450, 34787129384939232351160,
  34789172151600422511700, 34790149125749492571260, 34794135262805881372350, 34796172151600422511700, 34797143247882843550070,
  34798114406084967067640, 34799132639163236697430, 34800154234005730231160, 34802161165477535830630, 34806125330288151269520,
  34807161165477535830630, 34808117770807333279760, 34809105280514343846580, 34811110560646537592380, 34812148172647694528020,
  34814111238501601734740, 34816150179354649149520, 34817147302533924631700, 34819156057221298170710, 34821114313348599214350,
  34822134309704083329110, 34826129524801652098560, 34827148172647694528020, 34829118124826603788920, 34830129956523370750650,
  34832130255053002247450, 34833151357185005713360, 34835125901872289669000, 34836161165477535830630, 34837134309704083329110,
  34838129810535376539120, 34841156057221298170710, 34843135515983961215250, 34847110166813257588640, 34848158288656811312820,
  34849130104674228602060, 34850114375077190285150, 34851136598119807617580, 34853172151600422511700, 34854172151600422511700,
  34856172151600422511700, 34865118633019087751050, 34866136042421296069470, 34868161165477535830630, 34869150179354649149520,
  34870112645174896634450, 34873122951791164230460, 34875101607103841182300, 34876132261759956868980, 34879172151600422511700,
  34880082836080755566500, 34881112671250530705260, 34882172151600422511700, 34884131547170317047520, 34885119894133685379700,
  34886161165477535830630, 34889172151600422511700, 34890172151600422511700, 34891172151600422511700, 34892072105609883466320,
  34893116167380832527960, 34894158288656811312820, 34895125611996920936480, 34898156057221298170710, 34899091689309411757950,
  34900098743244881278970, 34901158288656811312820, 34902143247882843550070, 34903081463832345967760, 34905112063468568085760,
  34907098066294753565460, 34909172151600422511700, 34912158288656811312820, 34913114499689394663270, 34914117303631087605160,
  34915091195613408729820, 34916143247882843550070, 34917091259843634136100, 34918165220128616912270, 34920085128159670308200,
  34921130880256572060800, 34923105168919881357600, 34924113097981941966000, 34926119894133685379700, 34927145761027126359140,
  34928104961468878659120, 34930129110949490470010, 34935113070771040822410, 34938172151600422511700, 34941138829555320759680,
  34942125423312077892660, 34943133233397441405450, 34945092530927334975050, 34946132448681286990500, 34948113658352623043120,
  34949129810535376539120, 34950156057221298170710, 34952154234005730231160, 34954165220128616912270, 34955102624313976263030,
  34957100290157377288460, 34962128331334075772900, 34963156057221298170710, 34965135515983961215250, 34966102827121506786630,
  34971172151600422511700, 34972121462558400309400, 34973161165477535830630, 34974119894133685379700, 34978136042421296069470,
  34980145761027126359140, 34986165220128616912270, 34987056360255771706070, 34989093264505180691570, 34993114625874034255400,
  34994165220128616912270, 34996154234005730231160, 34999119787180794212220, 35004144425713200113900, 35006158288656811312820,
  35007172151600422511700, 35008152692498931958590, 35009099532329495484200, 35010099616896595666450, 35011146502106847896340,
  35013083753038094879080, 35014126508118507833360, 35015117641215886854710, 35016151357185005713360, 35017130880256572060800,
  35018129810535376539120, 35022144425713200113900, 35023107183850520653100, 35026145761027126359140, 35028114689568517110190,
  35029106456786218368760, 35032104083306818589950, 35033104805683822782230, 35034165220128616912270, 35035148172647694528020,
  35036091259843634136100, 35037165220128616912270, 35039136042421296069470, 35041158288656811312820, 35042140371062119032250,
  35043143819466981949550, 35044109965599225594420, 35045138829555320759680, 35048123399627190500200, 35049161165477535830630,
  35055150179354649149520, 35056137494241394514450, 35057127963194344545740, 35059127378232277729650, 35060112438982024607100,
  35064110774329881649380, 35065099860461644578700, 35068135775738825247870, 35070131721087744166210, 35071165220128616912270,
  35072165220128616912270, 35074111772891223290340, 35075134774904239678030, 35078172151600422511700, 35079165220128616912270,
  35080172151600422511700, 35082141241175888928560, 35084151357185005713360, 35086154234005730231160, 35088111036927027484930,
  35090124029756868787540, 35091161165477535830630, 35092172151600422511700, 35094172151600422511700, 35096156057221298170710,
  35097151357185005713360, 35098112882340162807600, 35099158288656811312820, 35101129956523370750650, 35103132833344095268460,
  35104114070175522707280, 35105134539599265576090, 35106113745183848777720, 35109123709729557925810, 35111172151600422511700,
  35114108677708325951610, 35115136598119807617580, 35117158288656811312820, 35120102332253650947840, 35122109965599225594420,
  35123127725087857608560, 35124138139626605890160, 35125172151600422511700, 35126117902100247697690, 35128158288656811312820,
  35131124789615938566760, 35136158288656811312820, 35137172151600422511700, 35140090609473473369440, 35145138829555320759680,
  35148161165477535830630, 35151172151600422511700, 35153172151600422511700, 35156172151600422511700, 35157131208154800290710,
  35158113658352623043120, 35163151357185005713360, 35164145761027126359140, 35165143819466981949550, 35166149125749492571260,
  35167114406084967067640, 35168126508118507833360, 35172138139626605890160, 35174137811728377660250, 35176156057221298170710,
  35178121462558400309400, 35180165220128616912270, 35183113097981941966000, 35186161165477535830630, 35187172151600422511700,
  35188172151600422511700, 35195139962842173829710, 35199073991930872445390, 35201052538313152979725, 35203136042421296069470]

def emitS22 : List Nat := [
  35206101650375219821130, 35207172151600422511700, 35210136042421296069470, 35211062304607157271015, 35215172151600422511700,
  35219103461455915854650, 35222092232295223986950, 35224139962842173829710, 35233147302533924631700, 35236161165477535830630,
  35237172151600422511700, 35238156057221298170710, 35241158288656811312820, 35242151357185005713360, 35244149125749492571260,
  35247140796658263220230, 35248161165477535830630, 35250161165477535830630, 35255158288656811312820, 35258084045512465353930,
  35259148172647694528020, 35261114406084967067640, 35263141241175888928560, 35264088330995248264300, 35265062304607157271015,
  35266088330995248264300, 35268095798561559917580, 35269103461455915854650, 35270092232295223986950, 35271139962842173829710,
  35272114406084967067640, 35273084045512465353930, 35274149125749492571260, 35275147302533924631700, 35276141241175888928560,
  35277172151600422511700, 35278156057221298170710, 35279140796658263220230, 35280134309704083329110, 35281116204486626493320,
  35282090612349102433100, 35284145071098411489620, 35286172151600422511700, 35290134309704083329110, 35291165220128616912270,
  35292145761027126359140, 35293165220128616912270, 35294134539599265576090, 35298172151600422511700, 35299085285616859742070,
  35301121092145683505910, 35302103639751147574280, 35308165220128616912270, 35311126200401921165820, 35315128207108875787320,
  35316134539599265576090, 35318126200401921165820, 35320172151600422511700, 35322130562769588915000, 35325172151600422511700,
  35327172151600422511700, 35328080362071435166220, 35330098723808529193260, 35331134774904239678030, 35332161165477535830630,
  35335150179354649149520, 35336172151600422511700, 35337165220128616912270, 35338088998382668736050, 35340145071098411489620,
  35342095058517088653020, 35343172151600422511700, 35344139570635042296890, 35345158288656811312820, 35347102510244298329280,
  35349117684226705848620, 35350117770807333279760, 35351161165477535830630, 35352154234005730231160, 35355114191022914858000,
  35357130880256572060800, 35359116204486626493320, 35362140371062119032250, 35363106698103819167520, 35365119370453830206550,
  35367172151600422511700, 35370099386036395324610, 35371165220128616912270, 35372148172647694528020, 35373075321944803243020,
  35377140371062119032250, 35379151357185005713360, 35380110045599652265200, 35382172151600422511700, 35383130562769588915000,
  35386113152626886686800, 35390145761027126359140, 35393139962842173829710, 35397161165477535830630, 35398145761027126359140,
  35400122247274554724350, 35403128457121897841500, 35406150179354649149520, 35408111583760290225470, 35410129110949490470010,
  35412172151600422511700, 35413100350901679483750, 35416133031370368230260, 35419139962842173829710, 35421151357185005713360,
  35422085608170126877000, 35424107935377744446530, 35425123476255917955900, 35426117858144132967300, 35427127608127459976630,
  35430089928749683784550, 35431172151600422511700, 35433165220128616912270, 35435122384262998305960, 35436125146796764587550,
  35437120056738894097510, 35438148172647694528020, 35440111537031233231550, 35441067740102119954940, 35442069760220192225740,
  35443102964648232307000, 35445123631297783315550, 35449109088847553031560, 35452124444754177855060, 35455125707691431098000,
  35459172151600422511700, 35460126933714652021320, 35461104793800280088440, 35462122045247481549150, 35463104466668306025420,
  35465096879041228773880, 35466131547170317047520, 35468172151600422511700, 35469093887169067951590, 35473120056738894097510,
  35474135515983961215250, 35475102681840501157530, 35477118680525115337030, 35480111820738204523700, 35482125707691431098000,
  35483172151600422511700, 35484152692498931958590, 35486172151600422511700, 35488105910948144512780, 35489119681359700906850,
  35491117303631087605160, 35492172151600422511700, 35493102739699871827970, 35494110904766513569670, 35496107153730015953170,
  35498049146093812512060, 35503145761027126359140, 35504070554036879690060, 35506092426940262766060, 35509172151600422511700,
  35510132261759956868980, 35513161165477535830630, 35516120222031913609620, 35519082625546663588190, 35520172151600422511700,
  35522142194277686971800, 35524138829555320759680, 35525147302533924631700, 35526172151600422511700, 35527084035077941041300,
  35529128976719287148600, 35531071494260973521400, 35533123098852638127420, 35534140371062119032250, 35535130407727723555350,
  35537135515983961215250, 35538111014778624189400, 35542083089021640945510, 35543135015879755468640, 35547122384262998305960,
  35548139193231762468430, 35549172151600422511700, 35550113152626886686800, 35552172151600422511700, 35553112567353492213900,
  35554125238121600220270, 35556126933714652021320, 35557172151600422511700, 35558114313348599214350, 35559172151600422511700,
  35563104628896661094300, 35565103586980576565860, 35566121337556772667100, 35569108607900014538220, 35570098330356765136600,
  35571124789615938566760, 35572172151600422511700, 35574112187079536321510, 35575134084975524808530, 35576172151600422511700,
  35577172151600422511700, 35578130255053002247450, 35580125238121600220270, 35582099413737244062780, 35584096197727633971990,
  35585112855708988612770, 35586101159582986980790, 35587161165477535830630, 35588131547170317047520, 35589130720253158596390,
  35590145071098411489620, 35591120911960628479140, 35594112829148548031610, 35595172151600422511700, 35596172151600422511700,
  35598101200956649640400, 35600130407727723555350, 35601172151600422511700, 35602165220128616912270, 35604116279113838509220,
  35606122951791164230460, 35607128331334075772900, 35609108748007385234190, 35611138139626605890160, 35613093895153100311820,
  35615172151600422511700, 35616125146796764587550, 35617158288656811312820, 35620149125749492571260, 35622165220128616912270,
  35624111701547282151600, 35625165220128616912270, 35627128084407949869180, 35628120852613273280980, 35635172151600422511700,
  35641104664004947594920, 35644172151600422511700, 35646117098285063188090, 35654172151600422511700, 35657151357185005713360,
  35662152692498931958590, 35663123025051565151190, 35668165220128616912270, 35669140796658263220230, 35670142194277686971800,
  35672092802884763059940, 35673126612831506506300, 35674151357185005713360, 35676094946983476514500, 35678140371062119032250,
  35679161165477535830630, 35685121152936144269730, 35686106317508200924070, 35689165220128616912270, 35691172151600422511700,
  35692137186524807846900, 35693165220128616912270, 35695172151600422511700, 35696095117009943839970, 35700121031722538946290,
  35703172151600422511700, 35704172151600422511700, 35706137811728377660250, 35709096879041228773880, 35710156057221298170710,
  35712085739808710539420, 35721146502106847896340, 35722078124652777806590, 35724172151600422511700, 35726124444754177855060,
  35730125330288151269520, 35731063892008987658070, 35733138139626605890160, 35734172151600422511700, 35740125423312077892660,
  35742133650124405411130, 35744143247882843550070, 35745087049914657718990, 35746098723808529193260, 35747134774904239678030,
  35748093887169067951590, 35749123025051565151190, 35750139570635042296890, 35751145071098411489620, 35752095058517088653020,
  35753063892008987658070, 35754117684226705848620, 35755117770807333279760, 35756161165477535830630, 35757102510244298329280,
  35758095117009943839970, 35759088998382668736050, 35760082978493490533650, 35762076982913100268480, 35763108607900014538220,
  35764147302533924631700, 35765122879063570939660, 35766130880256572060800, 35767119370453830206550, 35768092354787398634310,
  35769114191022914858000, 35770083089021640945510, 35771172151600422511700, 35772116204486626493320, 35773126718652599811680,
  35774075321944803243020, 35775099386036395324610, 35776106698103819167520, 35777090187232310161440, 35778139962842173829710,
  35779119370453830206550, 35780100350901679483750, 35781139962842173829710, 35782092802884763059940, 35784111583760290225470,
  35785110045599652265200, 35786113152626886686800, 35787139570635042296890, 35788130720253158596390, 35789085608170126877000,
  35790133031370368230260, 35791088898540124985900, 35792172151600422511700, 35793097375557990535830, 35794129110949490470010,
  35795122045247481549150, 35796126933714652021320, 35797089928749683784550, 35798125707691431098000, 35799084253476560601990,
  35800111537031233231550, 35801124444754177855060, 35802105910948144512780, 35803104793800280088440, 35804123631297783315550,
  35805067740102119954940, 35806118680525115337030, 35807125146796764587550, 35808121214098414444100, 35809120056738894097510,
  35810117858144132967300, 35811127608127459976630, 35812123098852638127420, 35813069760220192225740, 35814102964648232307000,
  35815122384262998305960, 35816125238121600220270, 35817123476255917955900, 35819119681359700906850, 35820117303631087605160,
  35821087894244613237690, 35822125707691431098000, 35823097679916826511300, 35824102739699871827970, 35825111820738204523700,
  35826107153730015953170, 35827120056738894097510, 35828049146093812512060, 35829110904766513569670, 35830135515983961215250,
  35831071494260973521400, 35832084036567920929310, 35833130407727723555350, 35834099413737244062780, 35835085739808710539420,
  35836135515983961215250, 35837126825605490979160, 35838092426940262766060, 35839128976719287148600, 35840122384262998305960,
  35841070554036879690060, 35842135015879755468640, 35843082625546663588190, 35844124276682994691260, 35845111014778624189400,
  35846138829555320759680, 35847132261759956868980, 35848084035077941041300, 35850120222031913609620, 35851096197727633971990,
  35852112187079536321510, 35853139193231762468430, 35854112829148548031610, 35855104628896661094300, 35856110666917463335250,
  35857116279113838509220, 35858112855708988612770, 35859101159582986980790, 35860126933714652021320, 35861103586980576565860,
  35862125238121600220270, 35863125330288151269520, 35864129524801652098560, 35865124789615938566760, 35866130255053002247450,
  35867114313348599214350, 35868101200956649640400, 35869113152626886686800, 35870152692498931958590, 35871111701547282151600,
  35872125423312077892660, 35873122951791164230460, 35874093895153100311820, 35875125146796764587550, 35876128331334075772900,
  35877112567353492213900, 35878108748007385234190, 35879130407727723555350, 35880104664004947594920, 35881117098285063188090,
  35882128084407949869180, 35883161165477535830630, 35884120852613273280980, 35885109217407634046900, 35886142194277686971800,
  35887125056298409388380, 35888138139626605890160, 35889094946983476514500, 35890135515983961215250, 35891133650124405411130,
  35892121031722538946290, 35893172151600422511700, 35894118538678765417470, 35895090658471986158280, 35897165220128616912270,
  35898172151600422511700, 35899165220128616912270, 35900172151600422511700, 35903139570635042296890, 35904158288656811312820,
  35905118633019087751050, 35908172151600422511700, 35910093979372567430040, 35911161165477535830630, 35912089106651442876060,
  35913150179354649149520, 35914149125749492571260, 35916158288656811312820, 35918101376619886819400, 35919172151600422511700,
  35920127378232277729650, 35924172151600422511700, 35925132639163236697430, 35926172151600422511700, 35930126301925635806000,
  35933161165477535830630, 35934136042421296069470, 35935156057221298170710, 35937081702841100025210, 35938118445220141235090,
  35939172151600422511700, 35944142707210630847300, 35946101401968442851280, 35947104050175921360350, 35948165220128616912270,
  35952172151600422511700, 35955137811728377660250, 35956151357185005713360, 35960152692498931958590, 35961105805266843894860,
  35962133031370368230260, 35965145761027126359140, 35968144425713200113900, 35970112515806986327260, 35973165220128616912270,
  35975158288656811312820, 35977127608127459976630, 35978142194277686971800, 35980104466668306025420, 35984172151600422511700,
  35986165220128616912270, 35987172151600422511700, 35988152692498931958590, 35992134084975524808530, 35996108890105690960720,
  35997104865314291664700, 35998111796786097264160, 36000172151600422511700, 36001156057221298170710, 36002106915977361016600,
  36005145761027126359140, 36007105507510219007640, 36008172151600422511700, 36009172151600422511700, 36010104455180653986700,
  36011133233397441405450, 36012101676428208938760, 36015113458631291173970, 36016172151600422511700, 36018126099898562630800,
  36019114883122946639740, 36020088082282450924720, 36022110227975527763000, 36023079532714083944125, 36024105520273462603690,
  36026151357185005713360, 36027156057221298170710, 36028086579772026187760, 36029125330288151269520, 36031117990596400467510]

def emitS23 : List Nat := [
  36032172151600422511700, 36033154234005730231160, 36034132448681286990500, 36035127843432434078570, 36036121847221208587350,
  36037146502106847896340, 36039098380263294172180, 36040096650246997627430, 36042086915872438708950, 36045122735176196418670,
  36048172151600422511700, 36049119524698533462870, 36050127843432434078570, 36051172151600422511700, 36057156057221298170710,
  36058135775738825247870, 36059165220128616912270, 36060094424073257824300, 36062172151600422511700, 36064104512751336887370,
  36065141241175888928560, 36066100914872570465640, 36067082821554506726260, 36068104409361558935570, 36070099984505555417140,
  36071156057221298170710, 36072121978802054362470, 36074085564672885612350, 36075172151600422511700, 36076104841419417690890,
  36077102313700769930380, 36084172151600422511700, 36090096814663324025400, 36091151357185005713360, 36092102994365936198570,
  36093092838752807252810, 36094127492519235965890, 36100139570635042296890, 36101121214098414444100, 36103141706376045277480,
  36104107742135016182500, 36106172151600422511700, 36108165220128616912270, 36109118445220141235090, 36111161165477535830630,
  36112151357185005713360, 36115127963194344545740, 36116139570635042296890, 36118111375177989021380, 36119132261759956868980,
  36123106683746314906480, 36125104865314291664700, 36126111796786097264160, 36127088235300738102800, 36129106915977361016600,
  36130097621777127857100, 36131101676428208938760, 36132100914872570465640, 36133091377128929199730, 36134104841419417690890,
  36135095107988743408590, 36136085564672885612350, 36137110752754900249160, 36138104455180653986700, 36139105507510219007640,
  36140110227975527763000, 36141102994365936198570, 36142113458631291173970, 36143106044639975334130, 36144114883122946639740,
  36145104409361558935570, 36146128976719287148600, 36147172151600422511700, 36148086579772026187760, 36149088082282450924720,
  36150151357185005713360, 36151105520273462603690, 36152117990596400467510, 36153091296732701483250, 36154098324135925122600,
  36155125330288151269520, 36156086915872438708950, 36157139570635042296890, 36158096650246997627430, 36159121847221208587350,
  36160126099898562630800, 36161127843432434078570, 36162132448681286990500, 36163127963194344545740, 36164098380263294172180,
  36165146502106847896340, 36166151357185005713360, 36168119524698533462870, 36169135775738825247870, 36170127843432434078570,
  36171099984505555417140, 36172102313700769930380, 36173113891599348707200, 36174111375177989021380, 36175094240505316411450,
  36176094424073257824300, 36177139570635042296890, 36178156057221298170710, 36179141241175888928560, 36180104512751336887370,
  36181156057221298170710, 36182101259168872236580, 36184121214098414444100, 36185151357185005713360, 36186096814663324025400,
  36187092838752807252810, 36188127492519235965890, 36189132261759956868980, 36190100095248658408080, 36191120734964857485120,
  36192107742135016182500, 36193118445220141235090, 36194094027818362625620, 36195106683746314906480, 36196093472885518548500,
  36197165220128616912270, 36198101615743150574950, 36199139570635042296890, 36203108418402526741580, 36204161165477535830630,
  36205135262805881372350, 36208063866797305469870, 36211134539599265576090, 36212087094323289442120, 36213091811773075679510,
  36214087993353452232230, 36215062352376459916370, 36219161165477535830630, 36222165220128616912270, 36225096608252185254240,
  36226172151600422511700, 36228151357185005713360, 36229089541502562273440, 36230148172647694528020, 36234075433523720515390,
  36235100343288432066160, 36238143819466981949550, 36241172151600422511700, 36244161165477535830630, 36245087993353452232230,
  36249091811773075679510, 36250172151600422511700, 36252172151600422511700, 36255107505717385612110, 36259114625874034255400,
  36264100343288432066160, 36267172151600422511700, 36270137494241394514450, 36271172151600422511700, 36273129110949490470010,
  36274129110949490470010, 36275080576931598820560, 36276115452791192706530, 36277144425713200113900, 36279165220128616912270,
  36280119948042171728470, 36282134084975524808530, 36284142707210630847300, 36286108215692883005400, 36287134309704083329110,
  36290161165477535830630, 36291092958038515905540, 36292141706376045277480, 36294143819466981949550, 36295172151600422511700,
  36299114721568544416890, 36300095382228964330920, 36302131208154800290710, 36303135515983961215250, 36305078725640911545180,
  36308172151600422511700, 36310138829555320759680, 36311131208154800290710, 36312172151600422511700, 36314141241175888928560,
  36315119370453830206550, 36317088804484204302540, 36318140796658263220230, 36319068294624131954970, 36321108521319387107070,
  36323131208154800290710, 36324120618684477533920, 36328092572826837613590, 36329165220128616912270, 36330090644035719756210,
  36331125330288151269520, 36332144425713200113900, 36335069886474049912670, 36339081718192109711600, 36341111772891223290340,
  36342131376225983454520, 36343119524698533462870, 36344129666648002018120, 36345134309704083329110, 36346103174550991225370,
  36347135015879755468640, 36348158288656811312820, 36349147302533924631700, 36350172151600422511700, 36353108748007385234190,
  36356156057221298170710, 36357109441716103928730, 36361136598119807617580, 36362123788781352996930, 36364152692498931958590,
  36367097102179738550000, 36368111772891223290340, 36370133650124405411130, 36372126404490637477900, 36376172151600422511700,
  36378154234005730231160, 36380137494241394514450, 36381127265236725190330, 36382120734964857485120, 36383161165477535830630,
  36384151357185005713360, 36385172151600422511700, 36386092111285343984730, 36387156057221298170710, 36389147302533924631700,
  36390133650124405411130, 36393100914872570465640, 36394112541547026278990, 36396152692498931958590, 36398128584512155615800,
  36400127378232277729650, 36401110904766513569670, 36402147302533924631700, 36403150179354649149520, 36404123788781352996930,
  36405131898083515160230, 36409114850602592775970, 36410172151600422511700, 36412172151600422511700, 36413172151600422511700,
  36416156057221298170710, 36417165220128616912270, 36418156057221298170710, 36420111749053309737580, 36421165220128616912270,
  36423098499799162301600, 36424123173202423002600, 36425151357185005713360, 36426158288656811312820, 36427124193694966544310,
  36428141706376045277480, 36429172151600422511700, 36430172151600422511700, 36431165220128616912270, 36432154234005730231160,
  36433127963194344545740, 36434156057221298170710, 36435139193231762468430, 36437129666648002018120, 36441113486919853178740,
  36442119319563135131830, 36444172151600422511700, 36447165220128616912270, 36448136316411037950620, 36449148172647694528020,
  36450172151600422511700, 36451156057221298170710, 36454109985539411663070, 36455161165477535830630, 36457137811728377660250,
  36459165220128616912270, 36460110166813257588640, 36461111820738204523700, 36463165220128616912270, 36464172151600422511700,
  36465165220128616912270, 36466100558681374536060, 36468129110949490470010, 36470134084975524808530, 36474172151600422511700,
  36475138478642122646980, 36476126000395254099120, 36477146502106847896340, 36478146502106847896340, 36479110476435513628300,
  36481118633019087751050, 36482131376225983454520, 36484152692498931958590, 36485165220128616912270, 36487150179354649149520,
  36489119948042171728470, 36490152692498931958590, 36491135015879755468640, 36493165220128616912270, 36495156057221298170710,
  36496149125749492571260, 36497172151600422511700, 36498140796658263220230, 36499152692498931958590, 36500158288656811312820,
  36501172151600422511700, 36502161165477535830630, 36504151357185005713360, 36506134309704083329110, 36508154234005730231160,
  36509172151600422511700, 36511146502106847896340, 36513148172647694528020, 36517110476435513628300, 36518154234005730231160,
  36519138139626605890160, 36522172151600422511700, 36523075480912682292830, 36524112287080369667350, 36525172151600422511700,
  36527118124826603788920, 36529165220128616912270, 36530090187232310161440, 36535148172647694528020, 36538090600851544397330,
  36539156057221298170710, 36544118124826603788920, 36546161165477535830630, 36547143819466981949550, 36550135015879755468640,
  36554149125749492571260, 36555113891599348707200, 36556109709931415874350, 36557070041877899670830, 36558158288656811312820,
  36559145761027126359140, 36562107662706481043140, 36563126099898562630800, 36564130720253158596390, 36571121337556772667100,
  36575089909965296133100, 36576161165477535830630, 36587137811728377660250, 36593172151600422511700, 36594161165477535830630,
  36596138829555320759680, 36598149125749492571260, 36600172151600422511700, 36601149125749492571260, 36602146502106847896340,
  36603135515983961215250, 36604115521995621152250, 36606150179354649149520, 36610154234005730231160, 36611068919429375931750,
  36613118260883124346700, 36615172151600422511700, 36616172151600422511700, 36617090987429694569680, 36618172151600422511700,
  36626127265236725190330, 36628102730033365517030, 36629082846658569589950, 36635172151600422511700, 36636145761027126359140,
  36637109807493165328000, 36638145761027126359140, 36639120390103096773430, 36643136887995176350100, 36645133031370368230260,
  36646105571489963804230, 36648140796658263220230, 36649100169764651492290, 36650087780928953142180, 36655107536918658974550,
  36659114070175522707280, 36664092351364499405260, 36667123476255917955900, 36670128331334075772900, 36671102701089785253380,
  36674165220128616912270, 36676082807049328472590, 36677126718652599811680, 36678135515983961215250, 36681161165477535830630,
  36685172151600422511700, 36686094080567521251900, 36688172151600422511700, 36689165220128616912270, 36692138829555320759680,
  36696148172647694528020, 36697172151600422511700, 36698172151600422511700, 36699111170857600849310, 36703096681859247346460,
  36704145761027126359140, 36705120446760472130200, 36706165220128616912270, 36708165220128616912270, 36710080063207964012570,
  36711113891599348707200, 36712109709931415874350, 36713107662706481043140, 36715130720253158596390, 36716078545049096161210,
  36717121337556772667100, 36718087780928953142180, 36719089909965296133100, 36720096681859247346460, 36721161165477535830630,
  36722135515983961215250, 36723165220128616912270, 36724099874975435225170, 36725149125749492571260, 36726115521995621152250,
  36728137811728377660250, 36729165220128616912270, 36730146502106847896340, 36731082846658569589950, 36732150179354649149520,
  36733090987429694569680, 36734172151600422511700, 36735094080567521251900, 36736172151600422511700, 36737172151600422511700,
  36738118260883124346700, 36739068919429375931750, 36740127265236725190330, 36741102730033365517030, 36742093724885672717150,
  36743105571489963804230, 36744100169764651492290, 36745109807493165328000, 36746133031370368230260, 36747145761027126359140,
  36749120390103096773430, 36750145761027126359140, 36751114070175522707280, 36752123476255917955900, 36753107536918658974550,
  36755092351364499405260, 36756120446760472130200, 36757126718652599811680, 36758082807049328472590, 36759128331334075772900,
  36760135515983961215250, 36761129666648002018120, 36762138829555320759680, 36763108836581923574800, 36764125146796764587550,
  36766097523708848387240, 36767098145394648800370, 36771102836882366517180, 36774079739025676402670, 36775148172647694528020,
  36776098169859492807060, 36777101351335423285820, 36779109125410665062660, 36780165220128616912270, 36781097523708848387240,
  36782109125410665062660, 36783101351335423285820, 36784110065700161545430, 36785106741300430612680, 36786096761329864271770,
  36789172151600422511700, 36790138829555320759680, 36793075172831444869510, 36797089955645880740920, 36798069661343301872280,
  36799172151600422511700, 36801092423492581297670, 36802128084407949869180, 36804116738964970927450, 36805119948042171728470,
  36806161165477535830630, 36807057243063772030480, 36808103842858076049930, 36809172151600422511700, 36811161165477535830630,
  36813149125749492571260, 36814088013293638300870, 36816086273220112656030, 36817074419520324819635, 36819134774904239678030,
  36820099925940234290010, 36821140796658263220230, 36824052507895993903950, 36825047398582877714700, 36827070621596833807660,
  36828077030128237778115, 36829110413739383492350, 36830071583078330087510, 36831096556005462434720, 36832165220128616912270,
  36834151357185005713360, 36836118872838734615910, 36837112337458309966900, 36838113600881200487440, 36840125330288151269520,
  36841134774904239678030, 36842112413504303819100, 36843103810513034373330, 36845110774329881649380, 36846154234005730231160]

def emitS24 : List Nat := [
  36847125707691431098000, 36848097939825136557770, 36851113774295950852320, 36852148172647694528020, 36853172151600422511700,
  36855098324135925122600, 36856112137451642900210, 36857108521319387107070, 36858158288656811312820, 36859165220128616912270,
  36861085713341999015680, 36862140796658263220230, 36864083222739010604400, 36865077018303537560610, 36866105739778725105800,
  36867087427550336250680, 36868142194277686971800, 36869142194277686971800, 36870100237307122147930, 36873083428130632681400,
  36874111238501601734740, 36875131208154800290710, 36877108943917480005900, 36878152692498931958590, 36879092983525513135690,
  36880103358042377907320, 36881131208154800290710, 36882094823525118291500, 36884104617221236533910, 36886140796658263220230,
  36887111654265870192140, 36889152692498931958590, 36890080427292433482090, 36891103789007649741050, 36893110166813257588640,
  36894112388091329532380, 36895095842134613607130, 36896091889898473047450, 36897138478642122646980, 36898103225184010790830,
  36899165220128616912270, 36902133233397441405450, 36903165220128616912270, 36909139193231762468430, 36910109217407634046900,
  36911133439590313432820, 36913081880216144962500, 36914070621596833807660, 36916172151600422511700, 36917133865186457620770,
  36918138139626605890160, 36920106031190074180800, 36923107902910183457830, 36924090217598102990730, 36926105700690727455270,
  36927137186524807846900, 36929115911425360638330, 36930088701796734806010, 36932133865186457620770, 36933172151600422511700,
  36935090646921306271690, 36938145071098411489620, 36939086273220112656030, 36941095433332443723910, 36942154234005730231160,
  36943125146796764587550, 36944142707210630847300, 36945130720253158596390, 36946135015879755468640, 36947053618770410779195,
  36948069661343301872280, 36949110413739383492350, 36951101607103841182300, 36952151357185005713360, 36953108504092853992600,
  36955125611996920936480, 36956111238501601734740, 36957172151600422511700, 36958094823525118291500, 36960077030128237778115,
  36962154234005730231160, 36963097268665270917440, 36965108504092853992600, 36968156057221298170710, 36969105739778725105800,
  36972135775738825247870, 36973091032319789404320, 36974104205734613746730, 36975131376225983454520, 36978096556005462434720,
  36980145761027126359140, 36981105058557019928730, 36983092423492581297670, 36984083428130632681400, 36985144425713200113900,
  36986101607103841182300, 36988089955645880740920, 36989125611996920936480, 36991094240505316411450, 36992100707528619300320,
  36993152692498931958590, 36994165220128616912270, 36995144425713200113900, 36996172151600422511700, 36997151357185005713360,
  36998165220128616912270, 36999134774904239678030, 37000139962842173829710, 37002172151600422511700, 37003154234005730231160,
  37007107902910183457830, 37008133233397441405450, 37009107183850520653100, 37011105082977056484240, 37013133650124405411130,
  37014126404490637477900, 37015142194277686971800, 37016151357185005713360, 37017139962842173829710, 37018137186524807846900,
  37019128457121897841500, 37021136316411037950620, 37024145071098411489620, 37025149125749492571260, 37026108049851602850050,
  37027055929318423904935, 37030086178626065932720, 37032144425713200113900, 37033132639163236697430, 37034096248130966486050,
  37036115113775675949710, 37038112187079536321510, 37039127153503719209070, 37040142707210630847300, 37041115732529713130590,
  37042150179354649149520, 37043128584512155615800, 37044146502106847896340, 37045120166630109853450, 37046140371062119032250,
  37047172151600422511700, 37048114040190492744700, 37049125330288151269520, 37050114010295104261060, 37051096462643788441760,
  37053141706376045277480, 37054136042421296069470, 37057120166630109853450, 37059116506396349284780, 37060142194277686971800,
  37061119894133685379700, 37063150179354649149520, 37066109807493165328000, 37067172151600422511700, 37070096248130966486050,
  37071126301925635806000, 37072147302533924631700, 37073098685048790746330, 37075126000395254099120, 37077152692498931958590,
  37079172151600422511700, 37083142194277686971800, 37084139193231762468430, 37085115315802749124900, 37086165220128616912270,
  37087172151600422511700, 37088117303631087605160, 37089080060203908515070, 37090102003456909756270, 37092152692498931958590,
  37094145761027126359140, 37095108695236814225760, 37096076988802815523770, 37098124966611709560770, 37099143247882843550070,
  37101091080425715007820, 37103136598119807617580, 37104172151600422511700, 37106172151600422511700, 37108126825605490979160,
  37109112187079536321510, 37111144425713200113900, 37112144425713200113900, 37113172151600422511700, 37117049952831157446010,
  37118133650124405411130, 37119136887995176350100, 37120122112137363057120, 37122081855025704004360, 37123156057221298170710,
  37124123788781352996930, 37125158288656811312820, 37126126000395254099120, 37129077160382023799070, 37135139570635042296890,
  37136142707210630847300, 37138125330288151269520, 37139172151600422511700, 37140115113775675949710, 37142108695236814225760,
  37143137811728377660250, 37144141706376045277480, 37145115180665557457670, 37146154234005730231160, 37147172151600422511700,
  37148140796658263220230, 37150143247882843550070, 37152151357185005713360, 37153158288656811312820, 37154137494241394514450,
  37155124029756868787540, 37156147302533924631700, 37159105082977056484240, 37160172151600422511700, 37161151357185005713360,
  37163150179354649149520, 37165098685048790746330, 37166152692498931958590, 37167133650124405411130, 37168096462643788441760,
  37169127265236725190330, 37170144425713200113900, 37171172151600422511700, 37172165220128616912270, 37174147302533924631700,
  37175156057221298170710, 37177139570635042296890, 37178136316411037950620, 37180165220128616912270, 37185172151600422511700,
  37186151357185005713360, 37187136598119807617580, 37190126301925635806000, 37191151357185005713360, 37192145761027126359140,
  37193119268930115566360, 37194142707210630847300, 37195121092145683505910, 37196120277742364104170, 37197093067728829611290,
  37198137186524807846900, 37200138478642122646980, 37202080401360154025560, 37204172151600422511700, 37205161165477535830630,
  37206161165477535830630, 37207154234005730231160, 37210117727423317293770, 37213128084407949869180, 37214142194277686971800,
  37217145071098411489620, 37218125423312077892660, 37219116857309547397480, 37220143247882843550070, 37221104318348416472100,
  37223124276682994691260, 37225149125749492571260, 37226128331334075772900, 37227146502106847896340, 37228111421155081507660,
  37230110624273475470680, 37231111398140111624870, 37232120166630109853450, 37233106698103819167520, 37234156057221298170710,
  37236165220128616912270, 37237130562769588915000, 37238101093739127699000, 37239111917124492901380, 37240089466846532685750,
  37241143819466981949550, 37242149125749492571260, 37243158288656811312820, 37245136598119807617580, 37246161165477535830630,
  37247119894133685379700, 37249172151600422511700, 37251111014778624189400, 37252147302533924631700, 37253156057221298170710,
  37254172151600422511700, 37255103821283094649700, 37256165220128616912270, 37257097558211470308760, 37259105857967888137220,
  37260134539599265576090, 37261161165477535830630, 37262158288656811312820, 37265154234005730231160, 37266092802884763059940,
  37269156057221298170710, 37274122879063570939660, 37275115768053729174250, 37276161165477535830630, 37278128084407949869180,
  37280149125749492571260, 37281135262805881372350, 37282142194277686971800, 37283140371062119032250, 37284126200401921165820,
  37288172151600422511700, 37290129956523370750650, 37291165220128616912270, 37292106698103819167520, 37293138478642122646980,
  37294125423312077892660, 37295125611996920936480, 37298172151600422511700, 37300129524801652098560, 37301141241175888928560,
  37306128331334075772900, 37308138829555320759680, 37309172151600422511700, 37312119894133685379700, 37313119894133685379700,
  37315161165477535830630, 37317136598119807617580, 37318172151600422511700, 37319096162595853797620, 37320165220128616912270,
  37321114437189191211570, 37322104985652687301930, 37323104985652687301930, 37324059628982885090760, 37325075525982108250510,
  37326099221423624783900, 37327079867833077888900, 37328138829555320759680, 37329075944333578477560, 37332131721087744166210,
  37333131721087744166210, 37335114531086594709950, 37336098060235983310430, 37337128713546203974880, 37338165220128616912270,
  37340101167844036603840, 37341172151600422511700, 37347111820738204523700, 37348172151600422511700, 37350154234005730231160,
  37351133031370368230260, 37353111126014476376030, 37354147302533924631700, 37356172151600422511700, 37357148172647694528020,
  37361151357185005713360, 37365117555745281070130, 37367122806861091204790, 37369136042421296069470, 37372130104674228602060,
  37375165220128616912270, 37376112723606671244700, 37377133439590313432820, 37379138829555320759680, 37380145761027126359140,
  37383146502106847896340, 37384148172647694528020, 37385104194542670776580, 37387136598119807617580, 37389113832775649676550,
  37390172151600422511700, 37392121152936144269730, 37393133865186457620770, 37394148172647694528020, 37396105990948571183540,
  37397127492519235965890, 37402154234005730231160, 37403165220128616912270, 37406108299656432534470, 37411101746236520352160,
  37412165220128616912270, 37413094252914831964660, 37414104363751445659950, 37415126000395254099120, 37418156057221298170710,
  37422123025051565151190, 37424151357185005713360, 37427158288656811312820, 37428165220128616912270, 37430158288656811312820,
  37431108486895945197330, 37432172151600422511700, 37433125146796764587550, 37434142707210630847300, 37437172151600422511700,
  37438106234863102425140, 37439134309704083329110, 37440107093759821229430, 37444172151600422511700, 37445133439590313432820,
  37448131376225983454520, 37449137186524807846900, 37451165220128616912270, 37453124276682994691260, 37455158288656811312820,
  37457114915749402987920, 37459172151600422511700, 37460125707691431098000, 37461172151600422511700, 37462172151600422511700,
  37463117098285063188090, 37465119787180794212220, 37466134309704083329110, 37467097703267683589790, 37470126933714652021320,
  37472156057221298170710, 37476099072872614874650, 37478145071098411489620, 37479165220128616912270, 37480145071098411489620,
  37481150179354649149520, 37484115180665557457670, 37485122593329846499100, 37490151357185005713360, 37492108783343111047300,
  37493172151600422511700, 37494119524698533462870, 37495161165477535830630, 37496123098852638127420, 37498147302533924631700,
  37499147302533924631700, 37503134084975524808530, 37504085230056484472720, 37507165220128616912270, 37509172151600422511700,
  37510083640693545861900, 37514165220128616912270, 37517172151600422511700, 37518136316411037950620, 37520126099898562630800,
  37521118079882707910540, 37522172151600422511700, 37523132448681286990500, 37526125146796764587550, 37528114375077190285150,
  37529158288656811312820, 37530142707210630847300, 37531145761027126359140, 37532172151600422511700, 37536136598119807617580,
  37539130255053002247450, 37541126933714652021320, 37542133439590313432820, 37543172151600422511700, 37544128976719287148600,
  37546172151600422511700, 37547127725087857608560, 37548120111533551743770, 37550127492519235965890, 37555172151600422511700,
  37556172151600422511700, 37558125611996920936480, 37559138478642122646980, 37561172151600422511700, 37563143819466981949550,
  37564126301925635806000, 37566161165477535830630, 37567165220128616912270, 37569154234005730231160, 37571132448681286990500,
  37573098054180881702480, 37574150179354649149520, 37575111490519521474240, 37576124029756868787540, 37580151357185005713360,
  37583149125749492571260, 37584152692498931958590, 37586172151600422511700, 37589152692498931958590, 37592161165477535830630,
  37594161165477535830630, 37597130720253158596390, 37599132833344095268460, 37601172151600422511700, 37603172151600422511700,
  37604114753671300719380, 37605142707210630847300, 37606138139626605890160, 37608131898083515160230, 37609143247882843550070,
  37610083888658110098540, 37612165220128616912270, 37614172151600422511700, 37615124276682994691260, 37616118260883124346700,
  37617152692498931958590, 37622172151600422511700, 37624112490133031274800, 37625156057221298170710, 37628093748470589310070,
  37629156057221298170710, 37633130255053002247450, 37634172151600422511700, 37636097014507944114660, 37638132639163236697430,
  37640132639163236697430, 37645172151600422511700, 37647165220128616912270, 37648106698103819167520, 37650130104674228602060]

def emitS25 : List Nat := [
  37653138829555320759680, 37656107366504000426030, 37657151357185005713360, 37658106669409394888000, 37659077733112026291510,
  37661129524801652098560, 37662131547170317047520, 37663139962842173829710, 37664114251998713539180, 37665105156597020894940,
  37666074242254759543740, 37670096303869646389730, 37671114282626608844640, 37672117990596400467510, 37673150179354649149520,
  37675100874663429037740, 37676158288656811312820, 37678120618684477533920, 37679084605259948199000, 37681143247882843550070,
  37682165220128616912270, 37683103124173050925790, 37686135015879755468640, 37688137494241394514450, 37691165220128616912270,
  37694127378232277729650, 37697125611996920936480, 37698119734130271915300, 37701148172647694528020, 37702142707210630847300,
  37703152692498931958590, 37705161165477535830630, 37706111725272085687900, 37707114040190492744700, 37708139193231762468430,
  37709122879063570939660, 37710122664001518730040, 37711095494066103894730, 37712098834450725247060, 37713097483605672325700,
  37714094705902328966760, 37715108748007385234190, 37716101317721946258760, 37717119473018831878440, 37718110330751355345400,
  37719101410432260538100, 37720119628866142045420, 37721092158170895378900, 37722094645453094807620, 37723102586145990996030,
  37724105034196471949920, 37725111868815220204730, 37726128084407949869180, 37727113125267088498060, 37728172151600422511700,
  37729131547170317047520, 37730117513282372255610, 37731134084975524808530, 37732132448681286990500, 37733138478642122646980,
  37734092317199792446300, 37735114850602592775970, 37736137494241394514450, 37737115697131446079350, 37738122045247481549150,
  37739127265236725190330, 37740121717349253319260, 37742172151600422511700, 37744125056298409388380, 37745165220128616912270,
  37749105255607730722060, 37750124276682994691260, 37754121653040350016340, 37756172151600422511700, 37758109690532767696090,
  37759141241175888928560, 37760144425713200113900, 37761156057221298170710, 37762108384330943525460, 37768156057221298170710,
  37769147302533924631700, 37770092706678783190120, 37772161165477535830630, 37773172151600422511700, 37774161165477535830630,
  37775130104674228602060, 37777144425713200113900, 37778165220128616912270, 37779158288656811312820, 37780154234005730231160,
  37782172151600422511700, 37783149125749492571260, 37784172151600422511700, 37786150179354649149520, 37787147302533924631700,
  37789134539599265576090, 37790165220128616912270, 37793137186524807846900, 37794111467344540070620, 37795172151600422511700,
  37798115349874332341040, 37799124702279138879210, 37801123553476378895000, 37802140371062119032250, 37803172151600422511700,
  37804104973553472274810, 37805114375077190285150, 37806115248005879271100, 37807102944885380024880, 37808131547170317047520,
  37809125611996920936480, 37810142707210630847300, 37811137494241394514450, 37812095574047711163070, 37813130562769588915000,
  37814102332253650947840, 37815110603019482347540, 37816108469728559006800, 37817119168426757031350, 37818110666917463335250,
  37819117858144132967300, 37820122045247481549150, 37821120911960628479140, 37822123399627190500200, 37823131376225983454520,
  37824106414798752905270, 37825109107112398291900, 37826100778816049907860, 37827098005871609005820, 37828089148798523985080,
  37829104640585733144100, 37830123173202423002600, 37831129384939232351160, 37832101478401935976970, 37833095630892961346900,
  37834131376225983454520, 37835109016119959740760, 37836115521995621152250, 37837106612266382253600, 37839172151600422511700,
  37840124877722235388320, 37841152692498931958590, 37846140371062119032250, 37847115014272367418030, 37848128713546203974880,
  37852120002242846421860, 37853158288656811312820, 37854152692498931958590, 37855103586980576565860, 37857098595189392769190,
  37858103897000059958650, 37860113572268877677120, 37862172151600422511700, 37864127378232277729650, 37868154234005730231160,
  37870136042421296069470, 37871154234005730231160, 37873165220128616912270, 37876139193231762468430, 37877136042421296069470,
  37881150179354649149520, 37883172151600422511700, 37887138139626605890160, 37891130407727723555350, 37892161165477535830630,
  37895143247882843550070, 37896172151600422511700, 37901135515983961215250, 37902149125749492571260, 37903116897071031193870,
  37904124444754177855060, 37905117814380386969320, 37906106842824145252870, 37907128457121897841500, 37908161165477535830630,
  37909142194277686971800, 37910118680525115337030, 37911101309336201532560, 37912123098852638127420, 37913117770807333279760,
  37914126099898562630800, 37915172151600422511700, 37916106698103819167520, 37917133233397441405450, 37918117727423317293770,
  37919148172647694528020, 37920165220128616912270, 37921132833344095268460, 37922103618609490650930, 37923119319563135131830,
  37924119734130271915300, 37925121978802054362470, 37926137494241394514450, 37927114344165264588420, 37928140796658263220230,
  37929107951651141040300, 37930100252378715053640, 37931124193694966544310, 37932125804310540215360, 37933111081371545089170,
  37934119576646702233900, 37938129247006011027800, 37939125056298409388380, 37941081493831214663410, 37944121214098414444100,
  37946136887995176350100, 37950133650124405411130, 37951154234005730231160, 37955172151600422511700, 37956102614758313806340,
  37957142194277686971800, 37961138139626605890160, 37962140371062119032250, 37963139962842173829710, 37964165220128616912270,
  37965151357185005713360, 37968158288656811312820, 37969108783343111047300, 37970172151600422511700, 37973154234005730231160,
  37979172151600422511700, 37980134084975524808530, 37982172151600422511700, 37984138478642122646980, 37987130720253158596390,
  37990172151600422511700, 37992134309704083329110, 37994172151600422511700, 37995122664001518730040, 37997135775738825247870,
  38000103671547676748080, 38001122453467426751700, 38002114160673877906460, 38003106031190074180800, 38004111421155081507660,
  38005117555745281070130, 38006131208154800290710, 38007140371062119032250, 38008120793616052009100, 38009120056738894097510,
  38010121399862270173440, 38011109517617796595470, 38012131721087744166210, 38013094449368380923870, 38014122593329846499100,
  38015102964648232307000, 38016112362742773500500, 38017130104674228602060, 38018134539599265576090, 38019126825605490979160,
  38020140796658263220230, 38021139570635042296890, 38022146502106847896340, 38023131721087744166210, 38024094178687687036980,
  38025098060235983310430, 38026114531086594709950, 38027128713546203974880, 38028131721087744166210, 38029122806861091204790,
  38030134539599265576090, 38031133031370368230260, 38032141706376045277480, 38033114981323408449500, 38034111126014476376030,
  38035111820738204523700, 38036142707210630847300, 38037136042421296069470, 38038128207108875787320, 38039117555745281070130,
  38040138829555320759680, 38041101746236520352160, 38042123948784766461340, 38043104363751445659950, 38044133439590313432820,
  38045113832775649676550, 38046105990948571183540, 38047090348391674774880, 38048104194542670776580, 38049111490519521474240,
  38050093748470589310070, 38051133865186457620770, 38052121152936144269730, 38053124966611709560770, 38054100335680976393070,
  38055108299656432534470, 38056111467344540070620, 38057099072872614874650, 38058126000395254099120, 38059133439590313432820,
  38060152692498931958590, 38061145761027126359140, 38062127492519235965890, 38063112723606671244700, 38064142707210630847300,
  38065074242254759543740, 38066145071098411489620, 38067117098285063188090, 38068108486895945197330, 38069112438982024607100,
  38070158288656811312820, 38071146502106847896340, 38072172151600422511700, 38073128844267019648410, 38074126933714652021320,
  38075094449368380923870, 38076115180665557457670, 38077122593329846499100, 38078107093759821229430, 38079134309704083329110,
  38080106234863102425140, 38081081493831214663410, 38082114915749402987920, 38083108265986367055420, 38084138478642122646980,
  38085097703267683589790, 38086134309704083329110, 38087165220128616912270, 38088136042421296069470, 38089137186524807846900,
  38090131376225983454520, 38091124276682994691260, 38092123025051565151190, 38093125146796764587550, 38094121214098414444100,
  38095119524698533462870, 38096120111533551743770, 38097136598119807617580, 38098147302533924631700, 38099143247882843550070,
  38100128457121897841500, 38101147302533924631700, 38102137811728377660250, 38103149125749492571260, 38105130407727723555350,
  38106140371062119032250, 38107136887995176350100, 38108085601197841428100, 38109104116547846428330, 38110158288656811312820,
  38111133439590313432820, 38112124702279138879210, 38113119628866142045420, 38114125146796764587550, 38115118079882707910540,
  38116151357185005713360, 38117151357185005713360, 38118145761027126359140, 38119136042421296069470, 38120132448681286990500,
  38121123553476378895000, 38122134084975524808530, 38123142707210630847300, 38124108660210508713750, 38125114375077190285150,
  38126106669409394888000, 38127127725087857608560, 38128123098852638127420, 38129126933714652021320, 38130103586980576565860,
  38131121782074398375430, 38133128976719287148600, 38134085230056484472720, 38135130255053002247450, 38136102614758313806340,
  38137152692498931958590, 38138083888658110098540, 38139148172647694528020, 38140137494241394514450, 38141156057221298170710,
  38142101478401935976970, 38143115014272367418030, 38144104711008559398240, 38145098986118650681960, 38146118260883124346700,
  38147142707210630847300, 38148114753671300719380, 38149093670069560516470, 38150124276682994691260, 38151131898083515160230,
  38152120676655654377180, 38153126301925635806000, 38154130720253158596390, 38155104273150599415910, 38156098054180881702480,
  38157135775738825247870, 38158142194277686971800, 38159114344165264588420, 38160113070771040822410, 38161115281846859113520,
  38162132448681286990500, 38163132833344095268460, 38164138139626605890160, 38165130104674228602060, 38166132639163236697430,
  38167121653040350016340, 38168135775738825247870, 38169084605259948199000, 38170117990596400467510, 38171077733112026291510,
  38172105156597020894940, 38173128713546203974880, 38174130255053002247450, 38175138829555320759680, 38176150179354649149520,
  38177100874663429037740, 38178120618684477533920, 38179112337458309966900, 38180107366504000426030, 38181106698103819167520,
  38182096303869646389730, 38183154234005730231160, 38184125611996920936480, 38185132639163236697430, 38186139962842173829710,
  38187147302533924631700, 38188139962842173829710, 38189114251998713539180, 38190105255607730722060, 38191112490133031274800,
  38192103124173050925790, 38193151357185005713360, 38194138478642122646980, 38195172151600422511700, 38196152692498931958590,
  38197128713546203974880, 38198124276682994691260, 38199134539599265576090, 38200132448681286990500, 38201121717349253319260,
  38202109690532767696090, 38203120111533551743770, 38204140371062119032250, 38205172151600422511700, 38206125056298409388380,
  38207138829555320759680, 38208122879063570939660, 38209108384330943525460, 38210113572268877677120, 38211137186524807846900,
  38212140796658263220230, 38213127963194344545740, 38214133865186457620770, 38215079062421069139950, 38216147302533924631700,
  38217118124826603788920, 38218140371062119032250, 38219165220128616912270, 38220124193694966544310, 38221104605559427632090,
  38222138829555320759680, 38223115349874332341040, 38224109768354172116640, 38225092706678783190120, 38226131547170317047520,
  38227130562769588915000, 38228165220128616912270, 38229137811728377660250, 38230103897000059958650, 38231120002242846421860,
  38232158288656811312820, 38235152692498931958590, 38236098595189392769190, 38237152692498931958590, 38238114010295104261060,
  38239129384939232351160, 38240124877722235388320, 38241161165477535830630, 38242140796658263220230, 38243124444754177855060,
  38244152692498931958590, 38245151357185005713360, 38246123399627190500200, 38247135775738825247870, 38248152692498931958590,
  38250150179354649149520, 38251123631297783315550, 38252124789615938566760, 38253125056298409388380, 38255129247006011027800,
  38256119576646702233900, 38257154234005730231160, 38258154234005730231160, 38259130720253158596390, 38260154234005730231160,
  38261161165477535830630, 38262107536918658974550, 38263066115248695103540, 38266140371062119032250, 38271066115248695103540,
  38272134539599265576090, 38274121399862270173440, 38275092406271981209440, 38278126404490637477900, 38280142707210630847300,
  38281165220128616912270, 38283069787780744417140, 38284128584512155615800, 38285172151600422511700, 38286119681359700906850]

def emitS26 : List Nat := [
  38287150179354649149520, 38289123248109140294190, 38290098274508031701300, 38291071448030374800110, 38292118585737675791600,
  38296165220128616912270, 38298158288656811312820, 38299172151600422511700, 38300165220128616912270, 38303156057221298170710,
  38305137186524807846900, 38307094340215324061560, 38308146502106847896340, 38309119576646702233900, 38310165220128616912270,
  38312119319563135131830, 38313104722794064592680, 38314172151600422511700, 38315138139626605890160, 38316105990948571183540,
  38317105405986504367450, 38318104386530498789880, 38319151357185005713360, 38320122879063570939660, 38321130880256572060800,
  38322101469880418631300, 38324152692498931958590, 38326119787180794212220, 38329117770807333279760, 38330161165477535830630,
  38331114785877447719800, 38332135015879755468640, 38333126301925635806000, 38334129956523370750650, 38335121589142369028630,
  38336105964210587339520, 38338103430319409121850, 38339130720253158596390, 38340103440687476406270, 38341116279113838509220,
  38342115147164688604850, 38343123173202423002600, 38344130562769588915000, 38345138478642122646980, 38346112802658466315840,
  38347172151600422511700, 38348123399627190500200, 38352129956523370750650, 38354151357185005713360, 38355126825605490979160,
  38356114625874034255400, 38357098255960885735370, 38358092354787398634310, 38360172151600422511700, 38362172151600422511700,
  38364161165477535830630, 38366152692498931958590, 38367116699825977716100, 38368165220128616912270, 38369124615698511448070,
  38370098145394648800370, 38372161165477535830630, 38373131376225983454520, 38376066229601284452110, 38377121399862270173440,
  38378092406271981209440, 38379126404490637477900, 38380142707210630847300, 38381093736671177911600, 38382067723760339733590,
  38383092354787398634310, 38384121462558400309400, 38385130562769588915000, 38386098274508031701300, 38387119681359700906850,
  38388071448030374800110, 38389118585737675791600, 38390128584512155615800, 38391101069159025196310, 38392101529684099646160,
  38393088127045283053570, 38394119319563135131830, 38395087503133312071440, 38396131376225983454520, 38397104722794064592680,
  38398121847221208587350, 38399126825605490979160, 38400119576646702233900, 38401094340215324061560, 38402137186524807846900,
  38403138139626605890160, 38404133439590313432820, 38405106428774995571640, 38406130255053002247450, 38407126301925635806000,
  38408126508118507833360, 38409117770807333279760, 38410119787180794212220, 38411130562769588915000, 38412129666648002018120,
  38413133865186457620770, 38414114785877447719800, 38415135015879755468640, 38416124615698511448070, 38417123399627190500200,
  38418130720253158596390, 38419165220128616912270, 38420096349706243066300, 38421127843432434078570, 38422114625874034255400,
  38423129956523370750650, 38424151357185005713360, 38425098255960885735370, 38426152692498931958590, 38427161165477535830630,
  38428109555785781862480, 38429145761027126359140, 38431077438409806577580, 38432158288656811312820, 38433129110949490470010,
  38434172151600422511700, 38440165220128616912270, 38442135775738825247870, 38444132261759956868980, 38446111654265870192140,
  38447139962842173829710, 38449143819466981949550, 38450092018168608645000, 38451090818661810285380, 38452094744956403339300,
  38453090821598236675600, 38454100028655737508320, 38458172151600422511700, 38459097592833547593470, 38460158288656811312820,
  38461165220128616912270, 38463083751589764077790, 38464101702549251218010, 38465165220128616912270, 38466131547170317047520,
  38468093275760105908920, 38469101843025661350500, 38470095447315200604790, 38471116583319805516330, 38472085817850965455250,
  38473138829555320759680, 38475124111389975179150, 38476121275637070187870, 38477085133146787026970, 38480094105007451950690,
  38484151357185005713360, 38485107774083925147700, 38487139193231762468430, 38488138829555320759680, 38489109070616007416420,
  38491115487333541387400, 38492172151600422511700, 38493107774083925147700, 38494156057221298170710, 38495138139626605890160,
  38497105713703091035000, 38498083676564163275300, 38499090821598236675600, 38500075152585418137230, 38503149125749492571260,
  38504123323581196648000, 38505097575507525355660, 38506090115823053132190, 38508138478642122646980, 38511158288656811312820,
  38512094744956403339300, 38514143247882843550070, 38515085817850965455250, 38516165220128616912270, 38517092583329201610610,
  38518106166510136366550, 38519100297730266707550, 38520095447315200604790, 38524136316411037950620, 38525138829555320759680,
  38529172151600422511700, 38533110688307845822750, 38534098474514698768000, 38536149125749492571260, 38537149125749492571260,
  38538077438409806577580, 38539102529165779849660, 38541142194277686971800, 38542100028655737508320, 38543081061881646632780,
  38544098188247484503640, 38545172151600422511700, 38547165220128616912270, 38548089569966807135530, 38549123323581196648000,
  38551140796658263220230, 38552114406084967067640, 38553110752754900249160, 38555101843025661350500, 38556116204486626493320,
  38558154234005730231160, 38560172151600422511700, 38562172151600422511700, 38564172151600422511700, 38565172151600422511700,
  38567129524801652098560, 38568115947591765340210, 38569172151600422511700, 38570097575507525355660, 38573158288656811312820,
  38576133865186457620770, 38577098188247484503640, 38579132833344095268460, 38580116583319805516330, 38582107822199495119920,
  38583123098852638127420, 38584107822199495119920, 38585133439590313432820, 38587172151600422511700, 38588117727423317293770,
  38589119576646702233900, 38590073893637974309150, 38592109985539411663070, 38593111868815220204730, 38596092317199792446300,
  38597102576626713742200, 38598084870578371890670, 38599107183850520653100, 38601119524698533462870, 38603119576646702233900,
  38604102836882366517180, 38605116204486626493320, 38606138478642122646980, 38607126099898562630800, 38610119218552175266800,
  38611142707210630847300, 38613092151459485731000, 38614076444914078383550, 38616161165477535830630, 38617158288656811312820,
  38618172151600422511700, 38619126099898562630800, 38620172151600422511700, 38621172151600422511700, 38622089779453389016820,
  38623158288656811312820, 38624124444754177855060, 38625161165477535830630, 38626080315744075838100, 38627073893637974309150,
  38632088145006670908860, 38633148172647694528020, 38634088525176106835330, 38636172151600422511700, 38638123248109140294190,
  38639151357185005713360, 38641165220128616912270, 38642084584776209846380, 38646096933007900495430, 38647096390627016280600,
  38648172151600422511700, 38649127378232277729650, 38651158288656811312820, 38652161165477535830630, 38654098743244881278970,
  38655172151600422511700, 38656080900508146376500, 38657131721087744166210, 38659142194277686971800, 38660129524801652098560,
  38661165220128616912270, 38662137186524807846900, 38663092413156663064860, 38664165220128616912270, 38665112464524822658060,
  38669103984241616562030, 38670130255053002247450, 38671116241730617403150, 38673161165477535830630, 38675114160673877906460,
  38678127963194344545740, 38684104675735154218560, 38686111892940684258570, 38691151357185005713360, 38692158288656811312820,
  38695098743244881278970, 38696152692498931958590, 38697158288656811312820, 38698161165477535830630, 38699161165477535830630,
  38701128844267019648410, 38704131208154800290710, 38705172151600422511700, 38706092699589098384120, 38707104039156636498780,
  38712105181257945846870, 38713151357185005713360, 38714145071098411489620, 38717131721087744166210, 38718125423312077892660,
  38719165220128616912270, 38724128844267019648410, 38726151357185005713360, 38728172151600422511700, 38729123709729557925810,
  38730158288656811312820, 38737172151600422511700, 38738085878576281549040, 38739131547170317047520, 38742109217407634046900,
  38745094100929979926830, 38746131547170317047520, 38747110603019482347540, 38748094100929979926830, 38750075151359702624260,
  38752081293630053495890, 38753116506396349284780, 38754076445611550049035, 38755139570635042296890, 38757131547170317047520,
  38758152692498931958590, 38760172151600422511700, 38761100906817797577480, 38764139193231762468430, 38768172151600422511700,
  38771138139626605890160, 38772113543738187853050, 38774111892940684258570, 38775172151600422511700, 38776156057221298170710,
  38777151357185005713360, 38778132833344095268460, 38780133865186457620770, 38783151357185005713360, 38784132078268570187000,
  38785165220128616912270, 38788172151600422511700, 38789133865186457620770, 38792115697131446079350, 38795098512465408453520,
  38797109235909026928510, 38799165220128616912270, 38801102120945834647100, 38802127153503719209070, 38803161165477535830630,
  38804132639163236697430, 38807150179354649149520, 38808107289992533070820, 38814165220128616912270, 38816124877722235388320,
  38817172151600422511700, 38818172151600422511700, 38819122735176196418670, 38822165220128616912270, 38823165220128616912270,
  38824133031370368230260, 38827126825605490979160, 38828145761027126359140, 38829096483315630428410, 38830147302533924631700,
  38831115626708619825220, 38834132833344095268460, 38835154234005730231160, 38836130255053002247450, 38838146502106847896340,
  38840151357185005713360, 38841131721087744166210, 38842172151600422511700, 38843139962842173829710, 38849114785877447719800,
  38850152692498931958590, 38851102120945834647100, 38853172151600422511700, 38856158288656811312820, 38857115626708619825220,
  38859104937343414605270, 38860121031722538946290, 38865172151600422511700, 38867172151600422511700, 38869128207108875787320,
  38871150179354649149520, 38872143819466981949550, 38873128207108875787320, 38876109403980210092340, 38878131898083515160230,
  38883134309704083329110, 38885161165477535830630, 38886104937343414605270, 38887121031722538946290, 38889090696104104675880,
  38890128207108875787320, 38891131898083515160230, 38892109403980210092340, 38893132078268570187000, 38899093219611727065640,
  38901105765922530846520, 38902131547170317047520, 38905135775738825247870, 38907172151600422511700, 38909165220128616912270,
  38911086310561455523070, 38913087159271762119270, 38914082536657189415710, 38915142707210630847300, 38917081365241612724170,
  38918092371919491226230, 38919158288656811312820, 38920156057221298170710, 38922152692498931958590, 38924108149025969423500,
  38926141241175888928560, 38927172151600422511700, 38928106598031504405060, 38929108890105690960720, 38930093381421466287740,
  38931093503560389227120, 38935086106888427278730, 38936161165477535830630, 38940120333764919590870, 38942141706376045277480,
  38944141706376045277480, 38945122806861091204790, 38946156057221298170710, 38948111844747819899090, 38950120971662298344160,
  38951137494241394514450, 38955129384939232351160, 38956136887995176350100, 38957165220128616912270, 38960106058107990837910,
  38962154234005730231160, 38963172151600422511700, 38965161165477535830630, 38967129384939232351160, 38968096702989735927150,
  38969125056298409388380, 38971104711008559398240, 38979165220128616912270, 38981129110949490470010, 38982148172647694528020,
  38986161165477535830630, 38987172151600422511700, 38988085725684414406000, 38989094056187175977610, 38990124111389975179150,
  38991111193354798189470, 38993172151600422511700, 38994136887995176350100, 38995150179354649149520, 38996158288656811312820,
  38998172151600422511700, 38999156057221298170710, 39000084297734549670160, 39001143819466981949550, 39002172151600422511700,
  39003172151600422511700, 39006158288656811312820, 39007172151600422511700, 39008165220128616912270, 39011113262820839182900,
  39013154234005730231160, 39015089663693085547590, 39019097898021552240200, 39023087870166676684440, 39024131042861780778600,
  39025120390103096773430, 39027130880256572060800, 39028133031370368230260, 39029087159271762119270, 39030082536657189415710,
  39031109965599225594420, 39032158288656811312820, 39033081365241612724170, 39034092371919491226230, 39035081105135748340530,
  39036152692498931958590, 39037108890105690960720, 39038089663693085547590, 39039093503560389227120, 39040141241175888928560,
  39041093381421466287740, 39042108149025969423500, 39043172151600422511700, 39044106598031504405060, 39045120390103096773430,
  39046083904821510869740, 39047086106888427278730, 39048096702989735927150, 39049122806861091204790, 39050106058107990837910,
  39051154234005730231160, 39052120333764919590870, 39053116316637334694730, 39054141241175888928560, 39055120971662298344160,
  39056111844747819899090, 39057104711008559398240, 39059125056298409388380, 39060129384939232351160, 39062109787904520474680]

def emitS27 : List Nat := [
  39063096243079185625910, 39064085725684414406000, 39065136887995176350100, 39066124111389975179150, 39067150179354649149520,
  39068111193354798189470, 39069094056187175977610, 39070130880256572060800, 39072107305248066159200, 39073143819466981949550,
  39074154234005730231160, 39075165220128616912270, 39076097898021552240200, 39078131042861780778600, 39079133031370368230260,
  39080078919375132183160, 39081172151600422511700, 39085161165477535830630, 39086140796658263220230, 39087145761027126359140,
  39089145071098411489620, 39094137811728377660250, 39098139570635042296890, 39099150179354649149520, 39100126301925635806000,
  39104142194277686971800, 39108098972838436246760, 39110129524801652098560, 39111172151600422511700, 39112172151600422511700,
  39114161165477535830630, 39118078919375132183160, 39119139570635042296890, 39120161165477535830630, 39121140796658263220230,
  39122145761027126359140, 39123137811728377660250, 39125126301925635806000, 39126150179354649149520, 39127142194277686971800,
  39128098972838436246760, 39129129524801652098560, 39130115180665557457670, 39131080495032779016280, 39133138139626605890160,
  39134080495032779016280, 39135084589499503644350, 39136136887995176350100, 39137172151600422511700, 39138112619167079633870,
  39139165220128616912270, 39140165220128616912270, 39143118728257902863610, 39144123948784766461340, 39145126825605490979160,
  39146134084975524808530, 39147129666648002018120, 39149118079882707910540, 39151084619465617070450, 39154091476973752411140,
  39156122879063570939660, 39164107351154803245180, 39165098455593217247620, 39166103639751147574280, 39170156057221298170710,
  39171125611996920936480, 39172165220128616912270, 39173172151600422511700, 39177108818804141114820, 39178091101545047039260,
  39180106915977361016600, 39181133865186457620770, 39182152692498931958590, 39184107742135016182500, 39185135015879755468640,
  39186136316411037950620, 39187096431715928737310, 39190172151600422511700, 39191172151600422511700, 39192082331013994453230,
  39194172151600422511700, 39195127043005357343200, 39196154234005730231160, 39197135775738825247870, 39198142194277686971800,
  39200133865186457620770, 39201121031722538946290, 39202114850602592775970, 39208096023290118438160, 39210172151600422511700,
  39212165220128616912270, 39214132639163236697430, 39217143819466981949550, 39219128331334075772900, 39221095153176348541850,
  39226172151600422511700, 39228122384262998305960, 39229165220128616912270, 39230143247882843550070, 39231128084407949869180,
  39233172151600422511700, 39235113629575624766980, 39236138829555320759680, 39237150179354649149520, 39240115349874332341040,
  39241128976719287148600, 39243124111389975179150, 39244107229202072307000, 39245172151600422511700, 39250098011897520607270,
  39252116130412213714710, 39253119370453830206550, 39255123948784766461340, 39259152692498931958590, 39260133865186457620770,
  39262111148410902311080, 39263172151600422511700, 39267132639163236697430, 39268165220128616912270, 39269112619167079633870,
  39271128331334075772900, 39272126825605490979160, 39273122384262998305960, 39274134084975524808530, 39275129666648002018120,
  39276118079882707910540, 39277084619465617070450, 39278091476973752411140, 39279142194277686971800, 39280103639751147574280,
  39281098455593217247620, 39282107351154803245180, 39284142707210630847300, 39285106915977361016600, 39286098011897520607270,
  39287108818804141114820, 39288165220128616912270, 39289152692498931958590, 39290125611996920936480, 39292098736761898880100,
  39293135015879755468640, 39294172151600422511700, 39295096431715928737310, 39296122951791164230460, 39297136316411037950620,
  39298156057221298170710, 39299154234005730231160, 39300127043005357343200, 39301121031722538946290, 39302096023290118438160,
  39303143247882843550070, 39304124111389975179150, 39306128084407949869180, 39307111148410902311080, 39308172151600422511700,
  39309113629575624766980, 39311143247882843550070, 39312115349874332341040, 39313128976719287148600, 39314150179354649149520,
  39315134539599265576090, 39316107229202072307000, 39317124193694966544310, 39318081386939788313160, 39319138829555320759680,
  39320152692498931958590, 39321085450741047317930, 39323172151600422511700, 39333139962842173829710, 39336121337556772667100,
  39337172151600422511700, 39340073157809177595870, 39341120277742364104170, 39342107443605384685700, 39344172151600422511700,
  39345109632561590852830, 39347101225863262764920, 39348119019540632093840, 39351112909042448366400, 39359158288656811312820,
  39360172151600422511700, 39361111583760290225470, 39362172151600422511700, 39363165220128616912270, 39367129110949490470010,
  39369165220128616912270, 39372172151600422511700, 39376083834481244295930, 39377145761027126359140, 39378121399862270173440,
  39380156057221298170710, 39381096132580823760070, 39384149125749492571260, 39385127378232277729650, 39387111701547282151600,
  39389103597512436412430, 39391172151600422511700, 39394122806861091204790, 39396165220128616912270, 39404165220128616912270,
  39405108890105690960720, 39406161165477535830630, 39408149125749492571260, 39409116699825977716100, 39416141241175888928560,
  39417145761027126359140, 39420172151600422511700, 39423121589142369028630, 39425127378232277729650, 39426165220128616912270,
  39427165220128616912270, 39428145761027126359140, 39429133031370368230260, 39432172151600422511700, 39434165220128616912270,
  39437172151600422511700, 39438088174262908722620, 39439158288656811312820, 39441161165477535830630, 39444172151600422511700,
  39445158288656811312820, 39446139570635042296890, 39447121399862270173440, 39449097398208056844350, 39455152692498931958590,
  39456149125749492571260, 39458165220128616912270, 39459172151600422511700, 39460133650124405411130, 39463172151600422511700,
  39464172151600422511700, 39467172151600422511700, 39469146502106847896340, 39470141706376045277480, 39472158288656811312820,
  39477172151600422511700, 39478143819466981949550, 39479119524698533462870, 39480172151600422511700, 39486113803493051885670,
  39488133031370368230260, 39489156057221298170710, 39490161165477535830630, 39491132639163236697430, 39492148172647694528020,
  39493104524305353192930, 39498151357185005713360, 39500146502106847896340, 39501161165477535830630, 39502135775738825247870,
  39509117345211189091800, 39511111283853153388640, 39514081771512930395950, 39515106886651826803810, 39519113862144246409650,
  39522101176111916363800, 39524143819466981949550, 39525135262805881372350, 39526152692498931958590, 39529156057221298170710,
  39530126825605490979160, 39531146502106847896340, 39532073157809177595870, 39533120277742364104170, 39534109632561590852830,
  39535119019540632093840, 39536101225863262764920, 39537104524305353192930, 39538165220128616912270, 39539111583760290225470,
  39540101176111916363800, 39541156057221298170710, 39542111701547282151600, 39543114948482656437600, 39544127378232277729650,
  39545121399862270173440, 39546143819466981949550, 39547083834481244295930, 39548103597512436412430, 39549145761027126359140,
  39550096132580823760070, 39551106886651826803810, 39552149125749492571260, 39553131042861780778600, 39554083548027689241490,
  39555149125749492571260, 39556117345211189091800, 39557151357185005713360, 39558116699825977716100, 39559108890105690960720,
  39560122806861091204790, 39562126825605490979160, 39563127378232277729650, 39564111283853153388640, 39565165220128616912270,
  39566141241175888928560, 39567121589142369028630, 39568158288656811312820, 39569088174262908722620, 39570172151600422511700,
  39571133031370368230260, 39573146502106847896340, 39574161165477535830630, 39575097398208056844350, 39576146502106847896340,
  39577133650124405411130, 39578119524698533462870, 39579139570635042296890, 39580156057221298170710, 39581141706376045277480,
  39582104675735154218560, 39583138829555320759680, 39584132639163236697430, 39585113803493051885670, 39586148172647694528020,
  39587158288656811312820, 39588113862144246409650, 39589135262805881372350, 39590152692498931958590, 39591143819466981949550,
  39592089347023556686100, 39598111193354798189470, 39599148172647694528020, 39600126404490637477900, 39601127963194344545740,
  39602154234005730231160, 39603172151600422511700, 39606129524801652098560, 39607133031370368230260, 39608113600881200487440,
  39609172151600422511700, 39610132448681286990500, 39611134084975524808530, 39612135515983961215250, 39616132639163236697430,
  39617124789615938566760, 39618131721087744166210, 39619165220128616912270, 39621138478642122646980, 39627138139626605890160,
  39628136887995176350100, 39630172151600422511700, 39631138478642122646980, 39633140371062119032250, 39635115556778264915500,
  39636135015879755468640, 39637136887995176350100, 39638138139626605890160, 39640062559155113533630, 39641158288656811312820,
  39644172151600422511700, 39645165220128616912270, 39646129956523370750650, 39647132639163236697430, 39649124360365491396420,
  39654117641215886854710, 39659148172647694528020, 39660165220128616912270, 39661132078268570187000, 39662165220128616912270,
  39663117513282372255610, 39664134774904239678030, 39667165220128616912270, 39673136316411037950620, 39675118445220141235090,
  39676128331334075772900, 39677161165477535830630, 39683126301925635806000, 39685172151600422511700, 39688136316411037950620,
  39692172151600422511700, 39695156057221298170710, 39696158288656811312820, 39699117179918169579700, 39704149125749492571260,
  39707172151600422511700, 39709172151600422511700, 39711135515983961215250, 39713143247882843550070, 39714117179918169579700,
  39715130255053002247450, 39716172151600422511700, 39717165220128616912270, 39719088127045283053570, 39721130562769588915000,
  39724165220128616912270, 39726133439590313432820, 39727139570635042296890, 39728158288656811312820, 39729120166630109853450,
  39730132448681286990500, 39732126200401921165820, 39733136887995176350100, 39734152692498931958590, 39739132078268570187000,
  39740086370599159314130, 39741132833344095268460, 39742147302533924631700, 39744156057221298170710, 39745113235158304254000,
  39746101192668211536400, 39747131042861780778600, 39748116093579759551740, 39749119734130271915300, 39750143247882843550070,
  39751123948784766461340, 39752138829555320759680, 39753132448681286990500, 39757135775738825247870, 39758132448681286990500,
  39759096092700411980500, 39760122664001518730040, 39761120852613273280980, 39764091530424594964330, 39768123948784766461340,
  39770147302533924631700, 39772149125749492571260, 39775139570635042296890, 39779161165477535830630, 39782101702549251218010,
  39784132078268570187000, 39791098411581829010120, 39792125517209481391050, 39794172151600422511700, 39796125146796764587550,
  39799121912795214048960, 39808172151600422511700, 39809137186524807846900, 39811125330288151269520, 39812148172647694528020,
  39814172151600422511700, 39816152692498931958590, 39818156057221298170710, 39819146502106847896340, 39820161165477535830630,
  39821145071098411489620, 39822122593329846499100, 39824136598119807617580, 39825114313348599214350, 39826130255053002247450,
  39827158288656811312820, 39834156057221298170710, 39835135015879755468640, 39837165220128616912270, 39838142194277686971800,
  39839138829555320759680, 39840102730033365517030, 39843145761027126359140, 39844143819466981949550, 39846131898083515160230,
  39848165220128616912270, 39850142194277686971800, 39851116130412213714710, 39853127153503719209070, 39854093662263158871000,
  39856172151600422511700, 39866149125749492571260, 39867161165477535830630, 39872123476255917955900, 39873149125749492571260,
  39877172151600422511700, 39879116279113838509220, 39880161165477535830630, 39881109328932953551640, 39882109690532767696090,
  39890152692498931958590, 39892137811728377660250, 39893172151600422511700, 39894134774904239678030, 39895145761027126359140,
  39899131376225983454520, 39901141706376045277480, 39904172151600422511700, 39905130104674228602060, 39906172151600422511700,
  39907172151600422511700, 39908137811728377660250, 39911144425713200113900, 39912111583760290225470, 39914125707691431098000,
  39915172151600422511700, 39917147302533924631700, 39919141706376045277480, 39920145071098411489620, 39923172151600422511700,
  39925146502106847896340, 39927150179354649149520, 39930165220128616912270, 39932147302533924631700, 39933126612831506506300,
  39934158288656811312820, 39935135515983961215250, 39937109709931415874350, 39939141241175888928560, 39944133650124405411130,
  39945152692498931958590, 39949128713546203974880, 39951158288656811312820, 39952150179354649149520, 39954172151600422511700]

def emitS28 : List Nat := [
  39955110166813257588640, 39956172151600422511700, 39957145761027126359140, 39963161165477535830630, 39964152692498931958590,
  39967145071098411489620, 39969172151600422511700, 39971145071098411489620, 39973144425713200113900, 39976172151600422511700,
  39977133233397441405450, 39981109088847553031560, 39982145071098411489620, 39983154234005730231160, 39985138829555320759680,
  39986103492689673677330, 39990158288656811312820, 39991150179354649149520, 39993141706376045277480, 39994156057221298170710,
  39995125056298409388380, 39997172151600422511700, 39998161165477535830630, 40000142194277686971800, 40002142194277686971800,
  40006172151600422511700, 40007138829555320759680, 40008126718652599811680, 40009110392927721454100, 40010142707210630847300,
  40015145071098411489620, 40017156057221298170710, 40018143247882843550070, 40019152692498931958590, 40020129956523370750650,
  40022135515983961215250, 40023165220128616912270, 40024136887995176350100, 40026151357185005713360, 40029136042421296069470,
  40031123868463049488700, 40032165220128616912270, 40033152692498931958590, 40035165220128616912270, 40036161165477535830630,
  40037158288656811312820, 40039148172647694528020, 40040172151600422511700, 40041151357185005713360, 40045135515983961215250,
  40053156057221298170710, 40055106262335647176530, 40056123248109140294190, 40058161165477535830630, 40060075230109955794910,
  40061158288656811312820, 40063121912795214048960, 40064132078268570187000, 40065098411581829010120, 40066125146796764587550,
  40067152692498931958590, 40069137186524807846900, 40070125330288151269520, 40071122593329846499100, 40072123248109140294190,
  40073141241175888928560, 40074158288656811312820, 40075130255053002247450, 40076115947591765340210, 40077114313348599214350,
  40078123868463049488700, 40079145071098411489620, 40080136598119807617580, 40081127153503719209070, 40082156057221298170710,
  40084142194277686971800, 40085142194277686971800, 40086131898083515160230, 40088172151600422511700, 40089165220128616912270,
  40090135515983961215250, 40091116130412213714710, 40092093662263158871000, 40093143247882843550070, 40094145761027126359140,
  40095136887995176350100, 40096149125749492571260, 40097161165477535830630, 40098104817581504138120, 40099141706376045277480,
  40100109328932953551640, 40101145071098411489620, 40102150179354649149520, 40103123476255917955900, 40104109690532767696090,
  40105116279113838509220, 40106161165477535830630, 40107126612831506506300, 40109134774904239678030, 40110141241175888928560,
  40112165220128616912270, 40113130104674228602060, 40114137811728377660250, 40115144425713200113900, 40116141706376045277480,
  40117133031370368230260, 40118145071098411489620, 40119131376225983454520, 40120111583760290225470, 40121156057221298170710,
  40122156057221298170710, 40123137811728377660250, 40124136042421296069470, 40125133650124405411130, 40126151357185005713360,
  40127139570635042296890, 40128139570635042296890, 40129145071098411489620, 40130154234005730231160, 40131110166813257588640,
  40132106262335647176530, 40133128713546203974880, 40134172151600422511700, 40135152692498931958590, 40137142194277686971800,
  40138135515983961215250, 40139165220128616912270, 40140103492689673677330, 40141109088847553031560, 40142116977071457864630,
  40143144425713200113900, 40144133233397441405450, 40145145071098411489620, 40146152692498931958590, 40147145071098411489620,
  40148108677708325951610, 40149126718652599811680, 40150110392927721454100, 40151125056298409388380, 40152156057221298170710,
  40153102360147671823610, 40154143819466981949550, 40155145761027126359140, 40156135515983961215250, 40157129956523370750650,
  40158099518304247743360, 40159143247882843550070, 40160172151600422511700, 40161152692498931958590, 40162148172647694528020,
  40163165220128616912270, 40165091929191254446340, 40167133233397441405450, 40169105713703091035000, 40172172151600422511700,
  40178156057221298170710, 40179103951436775770400, 40180165220128616912270, 40182136042421296069470, 40183158288656811312820,
  40189172151600422511700, 40190156057221298170710, 40198122179477684870560, 40199133865186457620770, 40201117098285063188090,
  40207161165477535830630, 40208161165477535830630, 40210145071098411489620, 40213172151600422511700, 40215156057221298170710,
  40217125238121600220270, 40219128976719287148600, 40221136887995176350100, 40222172151600422511700, 40223130562769588915000,
  40225156057221298170710, 40226147302533924631700, 40227133865186457620770, 40230132448681286990500, 40232098139287778381570,
  40234165220128616912270, 40237165220128616912270, 40239139962842173829710, 40240132639163236697430, 40244158288656811312820,
  40247165220128616912270, 40251094129507260040540, 40255119628866142045420, 40258132078268570187000, 40270172151600422511700,
  40271165220128616912270, 40272161165477535830630, 40273109768354172116640, 40274129666648002018120, 40275136316411037950620,
  40276172151600422511700, 40278143247882843550070, 40280172151600422511700, 40281172151600422511700, 40282152692498931958590,
  40283172151600422511700, 40284141706376045277480, 40285106612266382253600, 40286110688307845822750, 40287172151600422511700,
  40288117641215886854710, 40289148172647694528020, 40291147302533924631700, 40297158288656811312820, 40298140371062119032250,
  40300108367338585995850, 40303147302533924631700, 40304143819466981949550, 40306113430422527757560, 40310172151600422511700,
  40316172151600422511700, 40317143247882843550070, 40327136887995176350100, 40329129810535376539120, 40330145761027126359140,
  40337156057221298170710, 40338151357185005713360, 40339148172647694528020, 40342172151600422511700, 40343133865186457620770,
  40344136598119807617580, 40346120561047430366430, 40352172151600422511700, 40353161165477535830630, 40356165220128616912270,
  40357145761027126359140, 40361135262805881372350, 40367114375077190285150, 40370149125749492571260, 40372108961919285047380,
  40377141241175888928560, 40378150179354649149520, 40379126825605490979160, 40380138478642122646980, 40383143819466981949550,
  40385132639163236697430, 40386126301925635806000, 40387165220128616912270, 40392161165477535830630, 40393165220128616912270,
  40395161165477535830630, 40403134309704083329110, 40406165220128616912270, 40407124877722235388320, 40409131721087744166210,
  40410135515983961215250, 40415165220128616912270, 40421139962842173829710, 40422121092145683505910, 40427172151600422511700,
  40429161165477535830630, 40431161165477535830630, 40434120911960628479140, 40436141706376045277480, 40438143247882843550070,
  40439172151600422511700, 40440131898083515160230, 40441102586145990996030, 40442131042861780778600, 40450151357185005713360,
  40455172151600422511700, 40457172151600422511700, 40458165220128616912270, 40463172151600422511700, 40465133439590313432820,
  40467149125749492571260, 40468144425713200113900, 40469124029756868787540, 40474135015879755468640, 40475134539599265576090,
  40476150179354649149520, 40477143247882843550070, 40478116936991243889250, 40479091929191254446340, 40480105713703091035000,
  40481089779453389016820, 40482136042421296069470, 40483100762930423056480, 40484156057221298170710, 40485124877722235388320,
  40486117098285063188090, 40488133865186457620770, 40489122179477684870560, 40490133865186457620770, 40491136887995176350100,
  40492124029756868787540, 40493098139287778381570, 40494129666648002018120, 40495132448681286990500, 40496145071098411489620,
  40497130562769588915000, 40498136887995176350100, 40499128976719287148600, 40501123868463049488700, 40502139962842173829710,
  40503131721087744166210, 40504139962842173829710, 40505132639163236697430, 40506132078268570187000, 40507147302533924631700,
  40509119628866142045420, 40510116936991243889250, 40511094129507260040540, 40512161165477535830630, 40513136316411037950620,
  40514143247882843550070, 40515109768354172116640, 40516117641215886854710, 40517106612266382253600, 40518129666648002018120,
  40519141706376045277480, 40520141706376045277480, 40521148172647694528020, 40522113430422527757560, 40523148172647694528020,
  40524140371062119032250, 40525165220128616912270, 40526147302533924631700, 40527108367338585995850, 40528158288656811312820,
  40529129810535376539120, 40533136598119807617580, 40534161165477535830630, 40535120561047430366430, 40536126825605490979160,
  40538143819466981949550, 40539145761027126359140, 40540135262805881372350, 40542126301925635806000, 40543149125749492571260,
  40544152692498931958590, 40545145761027126359140, 40546158288656811312820, 40547138478642122646980, 40548103746135129624850,
  40549165220128616912270, 40550135015879755468640, 40551134309704083329110, 40552135515983961215250, 40553143247882843550070,
  40554121092145683505910, 40555120911960628479140, 40556131898083515160230, 40557131042861780778600, 40558141241175888928560,
  40559172151600422511700, 40560102586145990996030, 40561135515983961215250, 40562154234005730231160, 40563134539599265576090,
  40565105584335180727800, 40569147302533924631700, 40570135515983961215250, 40572122664001518730040, 40573088183282075061180,
  40574135515983961215250, 40575097102179738550000, 40578128331334075772900, 40580172151600422511700, 40581165220128616912270,
  40583139962842173829710, 40584142194277686971800, 40587137811728377660250, 40592139962842173829710, 40593165220128616912270,
  40594115768053729174250, 40595115697131446079350, 40597150179354649149520, 40598165220128616912270, 40599101720001262628320,
  40604144425713200113900, 40605112723606671244700, 40607126200401921165820, 40611158288656811312820, 40613099344628468664300,
  40614099344628468664300, 40617139193231762468430, 40623172151600422511700, 40628150179354649149520, 40629156057221298170710,
  40632139193231762468430, 40633150179354649149520, 40635097352959110861460, 40636078806570276545670, 40637110351433885985980,
  40638130255053002247450, 40639145071098411489620, 40640172151600422511700, 40643079038889516965485, 40644079038889516965485,
  40645142194277686971800, 40648172151600422511700, 40649156057221298170710, 40652156057221298170710, 40653120277742364104170,
  40654106442770799115870, 40655121782074398375430, 40656137186524807846900, 40657078829560825181480, 40658172151600422511700,
  40659172151600422511700, 40660103492689673677330, 40664108099315842203300, 40666149125749492571260, 40667116544784112356440,
  40668127725087857608560, 40669138139626605890160, 40670151357185005713360, 40671151357185005713360, 40672143247882843550070,
  40674156057221298170710, 40677133233397441405450, 40679148172647694528020, 40680071545405439947490, 40681158288656811312820,
  40686151357185005713360, 40687131898083515160230, 40692112464524822658060, 40693161165477535830630, 40695158288656811312820,
  40697156057221298170710, 40698142194277686971800, 40699141241175888928560, 40700120618684477533920, 40701126508118507833360,
  40702126508118507833360, 40703121589142369028630, 40706142707210630847300, 40712172151600422511700, 40713125804310540215360,
  40715121589142369028630, 40717125804310540215360, 40718103194773445033030, 40720118352626887107120, 40723093238292845892840,
  40727132078268570187000, 40729129956523370750650, 40730172151600422511700, 40736104758234148939980, 40745139193231762468430,
  40748126933714652021320, 40751141706376045277480, 40753152692498931958590, 40754165220128616912270, 40755172151600422511700,
  40756161165477535830630, 40759139193231762468430, 40760165220128616912270, 40761147302533924631700, 40763097403878598533020,
  40766134309704083329110, 40768172151600422511700, 40769151357185005713360, 40772154234005730231160, 40774139193231762468430,
  40777165220128616912270, 40778088145006670908860, 40779100139891589694920, 40780165220128616912270, 40781150179354649149520,
  40782134539599265576090, 40783136887995176350100, 40784088145006670908860, 40785136887995176350100, 40786100818640873551040,
  40788125238121600220270, 40789151357185005713360, 40793143247882843550070, 40795161165477535830630, 40796123098852638127420,
  40799124877722235388320, 40800126825605490979160, 40801165220128616912270, 40803151357185005713360, 40806128584512155615800,
  40807165220128616912270, 40808172151600422511700, 40810172151600422511700, 40811172151600422511700, 40812125901872289669000,
  40814172151600422511700, 40816172151600422511700, 40818116204486626493320, 40819172151600422511700, 40823172151600422511700,
  40824161165477535830630, 40825115947591765340210, 40831100818640873551040, 40832125238121600220270, 40833151357185005713360,
  40834172151600422511700, 40835124877722235388320, 40836106498950722158110, 40837115147164688604850, 40838126825605490979160]

def emitS29 : List Nat := [
  40839123098852638127420, 40840128584512155615800, 40841125901872289669000, 40842129810535376539120, 40843116204486626493320,
  40844129666648002018120, 40845080885274193484730, 40846165220128616912270, 40847172151600422511700, 40848110970628442098230,
  40852136042421296069470, 40853111352268471555800, 40857080885274193484730, 40858120446760472130200, 40859118079882707910540,
  40860104094374888341860, 40863104094374888341860, 40864156057221298170710, 40866106193795282898600]

/-- `emit_P['S']`, jieba/finalseg/prob_emit.py -/
def emitS : List Nat :=
  emitS0 ++ ( emitS1 ++ ( emitS2 ++ ( emitS3 ++ ( emitS4 ++ ( emitS5 ++ ( emitS6 ++ ( emitS7 ++ ( emitS8 ++ ( emitS9 ++ (
  emitS10 ++ ( emitS11 ++ ( emitS12 ++ ( emitS13 ++ ( emitS14 ++ ( emitS15 ++ ( emitS16 ++ ( emitS17 ++ ( emitS18 ++ ( emitS19 ++ (
  emitS20 ++ ( emitS21 ++ ( emitS22 ++ ( emitS23 ++ ( emitS24 ++ ( emitS25 ++ ( emitS26 ++ ( emitS27 ++ ( emitS28 ++ (emitS29)))))))))))))))))))))))))))))

/-- The code point of an entry. -/
def code (e : Nat) : Nat := e / 1000000000000000000
/-- The double of an entry. -/
def value (e : Nat) : ℚ := rnd (-((e % 10 ^ 18 : ℕ) / 10 ^ 16))

def emitTable : St → List Nat
  | .B => emitB | .M => emitM | .E => emitE | .S => emitS

/-- jieba/finalseg/prob_start.py -/
def start : St → ℚ
  | .B => rnd (-26268660809250016 / 10 ^ 17)
  | .M => minFloat
  | .E => minFloat
  | .S => rnd (-14652633398537678 / 10 ^ 16)

/-- jieba/finalseg/prob_trans.py -/
def trans : St → St → Option ℚ
  | .B, .M => some (rnd (-916290731874155 / 10 ^ 15))
  | .B, .E => some (rnd (-510825623765990 / 10 ^ 15))
  | .M, .M => some (rnd (-12603623820268226 / 10 ^ 16))
  | .M, .E => some (rnd (-33344856811948514 / 10 ^ 17))
  | .E, .B => some (rnd (-5897149736854513 / 10 ^ 16))
  | .E, .S => some (rnd (-8085250474669937 / 10 ^ 16))
  | .S, .B => some (rnd (-7211965654669841 / 10 ^ 16))
  | .S, .S => some (rnd (-6658631448798212 / 10 ^ 16))
  | _, _ => none

/-- The tables as Python has them after the import, jieba/finalseg/__init__.py:29-34, with `MIN_FLOAT` (line 8). -/
def tables : Tables ℚ where
  start := start
  trans := trans
  emit y c := ((emitTable y).find? (fun e => code e == c)).map value
  minFloat := minFloat

end Jieba.HmmData
