import Verif.Model.Basic
/-!
# jieba/posseg/prob_emit.py: the states with 'B'

Generated, in the order of the file.  An entry `'c': -x` is written as one number, `code point * 10^19 + x * 10^17`; long rows are
written as several lists.
-/

namespace Jieba.PosData

def emitB0_0 : List Nat := [
  199680361871566678210800, 199751050056688538151500, 199780854114301715947700, 199790844522289528073800, 199810279908675835804030,
  199850783797905835606100, 199870774903157233956500, 199901146564778142510100, 199990838603402389040800, 200020838603402389040800,
  200050434742900428612900, 200070959384560452351000, 200100621075997280440000, 200130702741805019266200, 200160464959669165330400,
  200260929659408105557700, 200291285194214254499200, 200371114719405030656700, 200410924102422990076800, 200470755112789579836800,
  200480564482328633723500, 200540871677558580263500, 200811354508932310493700, 200981354508932310493700, 201020735682520002234700,
  201050893991913711684600, 201111098013996564340000, 201230913837007584068300, 201300886295809598071700, 201321354508932310493700,
  201420829806525094445000, 201460617422915656822100, 201491244647703443682700, 201610850166420618569000, 201711354508932310493700,
  201740749300015418052000, 201790870880741615345900, 201830915064016843249700, 202151024925245710060800, 202190881770150439259700,
  202391134786474576871700, 202480538571458632951000, 202501090603199348967900, 202550638813295848930000, 202560871677558580263500,
  202600661753141682662000, 202780874106827837168000, 202801354508932310493700, 203020579017905108350650, 203070803975778717257400,
  203090943421545893162500, 203581021288481292973300, 203601285194214254499200, 203811244647703443682700, 203840983151725640062900,
  203890806445039976294500, 204150580051951375044200, 204191040959510717578800, 204260836330577281285200, 204310911427252426162400,
  204390998974126161552300, 204450661557255234128800, 204480983151725640062900, 204610971644792661584200, 204620905645295337279800,
  204651021288481292973300, 204890870880741615345900, 204910621075997280440000, 204980773095879127987000, 205000840929088605467500,
  205081090603199348967900, 205171060065034393849700, 205180938620623974526500, 205201050056688538151500, 205400778303794032476050,
  205530638813295848930000, 205590753627613766234200, 205701134786474576871700, 205720833015356549595200, 205810526818584183787900,
  205980700405932391503300, 206250708205986618426700, 206580856148270139660100, 206590871677558580263500, 206630661753141682662000,
  206870891036033487530200, 207090806445039976294500, 207250848884351775663000, 207291024925245710060800, 207310903422981658808800,
  207450971644792661584200, 207780538571458632951000, 208011098013996564340000, 208030967388831219704700, 208050581843565825729400,
  208070684929040604644500, 208080569381732599505300, 208090666060267106215400, 208370911427252426162400, 208390805615159694825000,
  208440597774364709169700, 208511045404686974662100, 208520718724705659683800, 208550489196761446445550, 208560824677195655690000,
  208590993417141046071200, 208690805615159694825000, 208820874106827837168000, 208870953775613787246500, 209011054935704955094500,
  209081215879496198504700, 209140695067586335515800, 209181354508932310493700, 209190625343311393047600, 209281215879496198504700,
  209320707119862675266200, 209340620555162769726200, 209370796914021995862050, 209390948464631255851700, 209400838603402389040800,
  209450905645295337279800, 209550978388920741137400, 209560978388920741137400, 209570872480775749990000, 209611244647703443682700,
  209820684929040604644500, 209841146564778142510100, 209860640463628000377800, 209930940195459671340400, 209980798826126140539900,
  209991106018267331693700, 210100863981454466650700, 210180754863723448591500, 210290783135651759556800, 210330591414274221447700,
  210350783135651759556800, 210500799212973818331900, 210510844522289528073800, 210661014389194144278200, 210761106018267331693700,
  210830754863723448591500, 210950649931274622542500, 211171001872879848877500, 211230863981454466650700, 211270649931274622542500,
  211600755863731782049900, 211641159917917404962400, 211701040959510717578800, 211710752893216340658360, 211830965326902499431000,
  211851040959510717578800, 211910687432300225906300, 212050755863731782049900, 212140752893216340658360, 212180965326902499431000,
  212200736094043216745400, 212430852780948629001200, 212480852780948629001200, 212540803166057693995400, 213190932558161792883000,
  213260724798000317100100, 213290778303794032476050, 213310711698405042034100, 213330572545302073734500, 213340891036033487530200,
  213380772500639275257500, 213481159917917404962400, 213610709146432421224600, 213850651511641139855100, 214020754615276115825400,
  214070591705819617460200, 214260651511641139855100, 214420921435598281860600, 214430921435598281860600, 214510686298072565512800,
  214530693574007993755600, 214570524704766173337140, 214630815146177675257500, 214751354508932310493700, 214760583085817825585100,
  214831077250060086515600, 214870486986726746378900, 215070663833454445638350, 215080769865054804721300, 215120475345128601893900,
  215130863243443736888400, 215170782477754649752550, 215231028699278508345600, 215330928240944606362100, 215470739662102718729000,
  215480830864736027498700, 215740857527602352893600, 215951244647703443682700, 216080715821000374229200, 216191146564778142510100,
  216290961326369038061100, 216440614385805869192200, 216960844522289528073800, 217090795410234259408000, 218070937070205320930000,
  218920746744707975590200, 219160740952443202319800, 219271159917917404962400, 219300959384560452351000, 219340572545302073734500,
  219431175332985387688300, 219581244647703443682700, 220240838603402389040800, 220680961326369038061100, 220700865474019488318400,
  220730938620623974526500, 221081285194214254499200, 221221146564778142510100, 221321175332985387688300, 221511028699278508345600,
  221651285194214254499200, 221790922760120956862700, 221960434742900428612900, 222100922760120956862700, 222420653027497182939200,
  222560733851339638000950, 222660532684139641919100, 222780722973132158260250, 222910722973132158260250, 222960653027497182939200,
  223031028699278508345600, 223070874106827837168000, 223120890069842396356500, 223200858926226550367600, 223430606748507990734800,
  223500866989199990378600, 223531354508932310493700, 223620559141954445513900, 223740740736226901870200, 224751175332985387688300,
  225190793928725680894000, 225220418529499796041600, 225300988152767697529000, 225330559141954445513900, 226041146564778142510100,
  227660697560790269064100, 227670697560790269064100, 227970525429497572358200, 228061001872879848877500, 228100654840783492839850,
  228150985620986899100000, 228160985620986899100000, 228230728169106051331300, 228250788909751228508400, 228260723154127682784150,
  228291354508932310493700, 228330660196690028550800, 228360705740530462032640, 228550638813295848930000, 228820750008400906892500,
  228851083703912200272700, 228871083703912200272700, 229040866989199990378600, 229090585024125072032700, 229141215879496198504700,
  229251244647703443682700, 229340912624871530834000, 229371124250423011089000, 229490767015859225290600, 229530847618512088470600,
  229960808976820774723600, 230140866989199990378600, 230410720826359195849600, 230470780529641092570300, 230711036703549275699200,
  230920876596582999340700, 231041036703549275699200, 231130830864736027498700, 231941124250423011089000, 232850847618512088470600,
  232910876596582999340700, 233080780529641092570300, 233911017779349311846300, 233960705284948808446500, 234091021288481292973300,
  234250786833552083665600, 234320879149913199857200, 234330576020002744983900, 234360537377244838520600, 234390698689152029266850,
  234511354508932310493700, 234520835213247221472700, 234530737967146887351700, 234540775819194173823000, 234570785472986878087600,
  234580720826359195849600, 234750845749298787255200, 234780921435598281860600, 234810494797650851282600, 234850507331199521918200,
  234900683334892804875700, 234940633797046689718100, 235000629516378638694900, 235060678351655430088100, 235211036703549275699200,
  235251054935704955094500, 235260775819194173823000, 235270786833552083665600, 235290785472986878087600, 235320507331199521918200,
  235420737967146887351700, 235450692368367134080200, 235470744926476067271200, 235530575687776525786100, 235600774903157233956500,
  235620833560317026351600, 235630744926476067271200, 235650692368367134080200, 235670892996880626367700, 235690740520477087868200,
  235721193565141067083600, 235740682607616871967700, 235781024925245710060800, 236040699115591907912600, 236070699115591907912600,
  236131354508932310493700, 236160926842320408888100, 236241244647703443682700, 236460907918120445035400, 236600907918120445035400,
  236971244647703443682700, 237891071187597904872000, 238031017779349311846300, 238150791746820941430000, 238220832473349802661200,
  240370848249429007797000, 240381354508932310493700, 240390754367444514378700, 240400495762407870336700, 240461090603199348967900,
  240690988152767697529000, 240761001872879848877500, 241010988152767697529000, 241021146564778142510100, 241181146564778142510100,
  241200535695590859445850, 241780525982818903598800, 241790345081613536272500, 241800559388216663196600, 241840593423653270968600,
  241850525982818903598800, 241880797293529092717300, 241890689740094954160700, 241910481714910071104100, 241960702299652493478450,
  242220640781088584455100, 242470920128390125125300, 242480739235662840083200, 242650759184598881715300, 242910481714910071104100,
  243200722432102885435400, 243220583757712850459700, 243431354508932310493700, 243471054935704955094500, 243520969494172139487800,
  243671193565141067083600, 243690901248982995168100, 243730969494172139487800, 243750448139453147023900, 243780448139453147023900,
  243981193565141067083600, 244261106018267331693700, 244291354508932310493700, 244560466353083446596100, 244710641579177417556400,
  244780749300015418052000, 244940637189758061833900, 245150682849454958395900, 245170550722308839531900, 245280948464631255851700,
  245370743806643536268300, 245440718206121956447150, 245510716158268822093100, 245550649844204525618100, 245651032621349823673600,
  245681011110211861979000, 245750932558161792883000, 245810953775613787246500, 245970796159301432323800, 246081090603199348967900,
  246090882659045180984200, 246130659907533200570900, 246150853445402900868200, 246180803975778717257400, 246230890069842396356500,
  246461001872879848877500, 246530836893959053110800, 246560655391243598372800, 246581001872879848877500, 246740963306631767679100,
  246810907918120445035400, 246840920128390125125300, 246850737967146887351700, 246880776434580731260750, 246910886295809598071700]

def emitB0_1 : List Nat := [
  246940648204115971676500, 247000831934264939173600, 247090873290496773252000, 247171077250060086515600, 247261175332985387688300,
  247301004858176163845800, 247360660971887708982650, 247420873290496773252000, 247480777676832731116450, 247491054935704955094500,
  247531244647703443682700, 247540594119135458305600, 247570953775613787246500, 247580892011650982066600, 247730955610527654066300,
  247740894996947297034700, 247780524108935214974100, 247790836330577281285200, 247961354508932310493700, 247971244647703443682700,
  248010648204115971676500, 248071159917917404962400, 248080724614007624899400, 248111011110211861979000, 248120901248982995168100,
  248130798440769208940900, 248170831934264939173600, 248220788212884296899100, 248251021288481292973300, 248261124250423011089000,
  248330897037834460155500, 248410688964897273728900, 248470592193625462803500, 248530879149913199857200, 248580754863723448591500,
  248590630372303978262000, 248600901248982995168100, 248630756115304241774700, 248680756620355820381500, 248710917564147063791500,
  249040684929040604644500, 249080734661060661262900, 249100781824157551774000, 249200724614007624899400, 249220798440769208940900,
  249351244647703443682700, 249471054935704955094500, 249491054935704955094500, 249510819798179238746800, 249620716158268822093100,
  249701011110211861979000, 249710926842320408888100, 249800819323118962887000, 249960756620355820381500, 250000938620623974526500,
  250260804383111256021000, 250310886295809598071700, 250320913837007584068300, 250420911427252426162400, 250621215879496198504700,
  250780911427252426162400, 250800777676832731116450, 250841159917917404962400, 251040439609258136980600, 251061244647703443682700,
  251630909074202685143000, 251660782477754649752550, 251691354508932310493700, 251910793928725680894000, 251950903422981658808800,
  251971024925245710060800, 252120963306631767679100, 252151146564778142510100, 252330828239913420005200, 252371175332985387688300,
  252481060065034393849700, 252500783466230573006800, 252650818850304843292400, 252760940195459671340400, 252770721180969496524700,
  252891354508932310493700, 253001001872879848877500, 253021045404686974662100, 253031065471756520877200, 253040811574369415049500,
  253050969494172139487800, 253170784130684844873600, 253260950203805527038600, 253430909074202685143000, 253450728359763878389450,
  253611354508932310493700, 253701285194214254499200, 254020881770150439259700, 254750903422981658808800, 254901354508932310493700,
  255780938620623974526500, 256301004858176163845800, 256540783466230573006800, 257050941795493805984500, 257111285194214254499200,
  257151060065034393849700, 257691083703912200272700, 257781354508932310493700, 257930784130684844873600, 258051285194214254499200,
  259180831934264939173600, 259320813791755164481900, 259350614141903309256300, 259431021288481292973300, 259501060065034393849700,
  259550803975778717257400, 259580971644792661584200, 259720691308754570930700, 259730813791755164481900, 259910870880741615345900,
  260310880889087471044000, 260320614691523013447100, 260410582773805091960700, 260701106018267331693700, 260800596643247251017400,
  260851083703912200272700, 260891285194214254499200, 261020808125751807932600, 261031146564778142510100, 261060701421169537905200,
  261140772500639275257500, 261240920128390125125300, 261260389978976779288700, 261270765344511127916600, 261310821721315431535600,
  261571159917917404962400, 261740566997004206464400, 261780808125751807932600, 261791114719405030656700, 262140963306631767679100,
  262220528952066982119100, 262230717690213675444400, 262280826697466387442000, 262300815601759328843600, 262620812455432383265100,
  262630740952443202319800, 262740750008400906892500, 262790878291538830718100, 262920799212973818331900, 263260878291538830718100,
  263361146564778142510100, 263540687813253067573000, 263560818850304843292400, 263641114719405030656700, 263680319170518995072500,
  263711090603199348967900, 263770383852947975212600, 263811040959510717578800, 263911114719405030656700, 264060675386786037875100,
  264080971644792661584200, 264121354508932310493700, 264200733448924608028400, 264260653568039039630000, 264340843914384920435600,
  264351354508932310493700, 264691021288481292973300, 264800708205986618426700, 264940682728462808124500, 264950965326902499431000,
  264970577275774793532400, 265240767579240997116200, 265430886295809598071700, 265800666060267106215400, 266310885374144087579400,
  266810489231683744687600, 266881114719405030656700, 267751354508932310493700, 268400863243443736888400, 268620835770351726418200,
  269970577275774793532400, 270540818379715739551200, 271380564482328633723500, 271610885374144087579400, 271690704831433291907400,
  271780988152767697529000, 271920733448924608028400, 272310653568039039630000, 272430988152767697529000, 274021354508932310493700,
  274241215879496198504700, 274260689869880825720700, 274270743806643536268300, 274501098013996564340000, 274541193565141067083600,
  274621354508932310493700, 274650967388831219704700, 274890689869880825720700, 274910437328190084553800, 274940990750316337855200,
  275130959384560452351000, 275150918838049641534500, 275301028699278508345600, 275310654020733339207700, 275440654020733339207700,
  275750771320684582142050, 275891215879496198504700, 276021011110211861979000, 276111040959510717578800, 276650575150251973335400,
  276680693708869780885000, 276830693708869780885000, 277001050056688538151500, 277451077250060086515600, 277691106018267331693700,
  277840532792072733886700, 277850532792072733886700, 277940795037794350309750, 278010911427252426162400, 278090795037794350309750,
  278220793561752791997700, 278331024925245710060800, 278771354508932310493700, 279000911427252426162400, 279050839179772860715700,
  279151071187597904872000, 279220909074202685143000, 279270955610527654066300, 279460836330577281285200, 279581106018267331693700,
  279630723881403615692150, 279690746515612800934700, 279730827208976454119000, 279751354508932310493700, 279850795037794350309750,
  279870632033591733696550, 280090816059426031584900, 280100769288684333046300, 280140850166420618569000, 280400698123379657280900,
  280851244647703443682700, 280920796914021995862050, 281071354508932310493700, 281140707119862675266200, 281200894996947297034700,
  281290857527602352893600, 281361215879496198504700, 281390759966871449836200, 281450532334159475831500, 281470904527965277467200,
  281490911427252426162400, 281510622257888910754300, 281540827208976454119000, 281650424007533752607300, 281700911427252426162400,
  282010572024363207808050, 282180836893959053110800, 282220795037794350309750, 282340905645295337279800, 282370855465673632620100,
  282870799212973818331900, 283100620555162769726200, 283310572024363207808050, 283431244647703443682700, 283491354508932310493700,
  283541106018267331693700, 283690784464574971425050, 283851014389194144278200, 284151014389194144278200, 284180650367765931012600,
  284590684067496814083000, 284870826697466387442000, 284970911427252426162400, 285000839179772860715700, 285180934039670371397000,
  285260718898166240904600, 285481004858176163845800, 285501354508932310493700, 286011124250423011089000, 286080526640716013403100,
  286110632033591733696550, 286290799212973818331900, 287030826697466387442000, 287530909074202685143000, 287790646422142641415500,
  287841354508932310493700, 287890590304492023168000, 287990767015859225290600, 288140767297153362952140, 288251050056688538151500,
  288430983151725640062900, 288580929659408105557700, 288610850813672069130800, 288661175332985387688300, 289020658569081097096100,
  289031017779349311846300, 289070929659408105557700, 289090518454994173407600, 289610596643247251017400, 289660648118536163286850,
  290021050056688538151500, 290301354508932310493700, 290330658569081097096100, 290531071187597904872000, 290741098013996564340000,
  290870769288684333046300, 290961134786474576871700, 291050518454994173407600, 291131065471756520877200, 291180850813672069130800,
  291381017779349311846300, 291450929659408105557700, 291521106018267331693700, 291570921435598281860600, 291580767015859225290600,
  292111175332985387688300, 292290893991913711684600, 292330630372303978262000, 292450759705433392429100, 292461193565141067083600,
  292550839759484629148500, 292751193565141067083600, 292820762083352569040500, 293010969494172139487800, 293050518454994173407600,
  293090969494172139487800, 293120878291538830718100, 293671215879496198504700, 293690666162673669184450, 293780722612120935850200,
  293901285194214254499200, 294061215879496198504700, 294080864724952315402500, 294090773095879127987000, 294200592242537178134200,
  294210650982072382384000, 294240890069842396356500, 294330650982072382384000, 294360983151725640062900, 294620806029238961428300,
  294650890069842396356500, 294670707739059700058350, 294940666162673669184450, 295440592242537178134200, 295521215879496198504700,
  295591215879496198504700, 295720912624871530834000, 295750993417141046071200, 296161215879496198504700, 296180883555912179260300,
  296450636349737849307200, 296771354508932310493700, 296941215879496198504700, 297021060065034393849700, 297120915064016843249700,
  297950915064016843249700, 298011106018267331693700, 298081285194214254499200, 299431124250423011089000, 299760931098281850767700,
  299800781174804620719150, 299830650630578171639600, 299920871677558580263500, 300210750008400906892500, 300310957479740955281500,
  300640583757712850459700, 300950831398070625035000, 301270626370365953465400, 301300586122534284850700, 301400937070205320930000,
  301491036703549275699200, 301620885374144087579400, 301710704530228244908200, 301961054935704955094500, 302190626370365953465400,
  302330905645295337279800, 302400983151725640062900, 302460788909751228508400, 303060885374144087579400, 303150965326902499431000,
  303220965326902499431000, 303320524704766173337140, 303330887226048864303000, 303431060065034393849700, 303551215879496198504700,
  303821083703912200272700, 304241106018267331693700, 304331354508932310493700, 304361106018267331693700, 304500881770150439259700,
  304520761550017971504200, 304560469571881935036700, 304650878291538830718100, 304950570202530641288250, 305240879149913199857200,
  305280701421169537905200, 305910931098281850767700, 306691065471756520877200, 306840887226048864303000, 306930636273721121967500,
  306990880015719474168600, 307010665549801475047100, 307020863981454466650700, 307030880015719474168600, 307720826697466387442000]

def emitB0_2 : List Nat := [
  308050882659045180984200, 308280873290496773252000, 308300726282257620893000, 308610900179454083493300, 308890882659045180984200,
  309060726282257620893000, 309221050056688538151500, 310010900179454083493300, 310700572665905103428050, 310770867755487264935400,
  311191354508932310493700, 311630846368495812047400, 311680736507266945236400, 311690608402380875065400, 312160904527965277467200,
  312291193565141067083600, 312320622721312447844200, 312580911427252426162400, 312640769001740090250950, 312810904527965277467200,
  312830437588349448730900, 313101077250060086515600, 313301193565141067083600, 313370437588349448730900, 313510832473349802661200,
  313540666060267106215400, 313610545254405921363800, 313640917564147063791500, 313681021288481292973300, 313781285194214254499200,
  313840902330074605589700, 313890859632943272676900, 314010859632943272676900, 314060832473349802661200, 314541354508932310493700,
  314710837460532806678500, 314781354508932310493700, 314911146564778142510100, 315280813344327124989700, 315480917564147063791500,
  315631175332985387688300, 316160483678002721324950, 316800882659045180984200, 317161146564778142510100, 317770483678002721324950,
  318400917564147063791500, 318950613595287918480900, 318960892996880626367700, 319221114719405030656700, 319340498829087709634000,
  319460699543858087112600, 319641098013996564340000, 319670788560710734531600, 320050772797816314173200, 320100766455633670423600,
  320131028699278508345600, 320200687052793129051100, 320270820275507114012600, 320320941795493805984500, 320390497397628969926900,
  320471071187597904872000, 320480593522712219138300, 320800740952443202319800, 320850676858233073275350, 320980844522289528073800,
  321471004858176163845800, 321860941795493805984500, 321891077250060086515600, 321910941795493805984500, 322020497397628969926900,
  322330618689557037190400, 322440996157038464882700, 322850918838049641534500, 323051077250060086515600, 323130937070205320930000,
  323210587746323151994600, 323461134786474576871700, 323501354508932310493700, 323821114719405030656700, 323990884460895731252000,
  324060825178449838044500, 324180772797816314173200, 324200825178449838044500, 324310687052793129051100, 324351028699278508345600,
  324371077250060086515600, 324390820275507114012600, 324510996157038464882700, 324540593522712219138300, 324631004858176163845800,
  324670740952443202319800, 324691354508932310493700, 324740844522289528073800, 324770676858233073275350, 324940941795493805984500,
  324961077250060086515600, 325010941795493805984500, 325310618689557037190400, 325400918838049641534500, 325440884460895731252000,
  325490937070205320930000, 325571134786474576871700, 325611114719405030656700, 325700988152767697529000, 325970678120441454250140,
  325990950203805527038600, 326450950203805527038600, 326540583085817825585100, 326700782477754649752550, 326810924102422990076800,
  327240912624871530834000, 327680796159301432323800, 327690668128593165198300, 327711175332985387688300, 327840644671368451415000,
  328190990750316337855200, 328291146564778142510100, 328310965326902499431000, 328500948464631255851700, 328521215879496198504700,
  328540874106827837168000, 328740660680483908797700, 328791215879496198504700, 328800660680483908797700, 328811215879496198504700,
  328930830864736027498700, 328990754367444514378700, 329010754367444514378700, 329050998974126161552300, 329320950203805527038600,
  329330636959960948071500, 329420836893959053110800, 329430985620986899100000, 329660720826359195849600, 329721050056688538151500,
  329821175332985387688300, 329931077250060086515600, 330210916306268843105400, 330300753627613766234200, 330391090603199348967900,
  330801215879496198504700, 331040805202787976438800, 331250912624871530834000, 331471106018267331693700, 331480888165022899287000,
  331511354508932310493700, 331780950203805527038600, 331921215879496198504700, 331931106018267331693700, 332130720826359195849600,
  332190941795493805984500, 332251215879496198504700, 332471090603199348967900, 332580480491259317585500, 332611193565141067083600,
  332680828239913420005200, 332880718724705659683800, 332980624057337664478150, 333240988152767697529000, 333910516463265526217100,
  333920600819219353876700, 333930600819219353876700, 333950832473349802661200, 333990832473349802661200, 334100882659045180984200,
  334361077250060086515600, 334571065471756520877200, 334850701713140548238600, 334950913837007584068300, 334990840929088605467500,
  335100722612120935850200, 335210693170510472537800, 335371032621349823673600, 335380736922205299917500, 335790754615276115825400,
  336090915064016843249700, 336151215879496198504700, 336180665041928367145550, 336350818379715739551200, 336391098013996564340000,
  336431040959510717578800, 336740702299652493478450, 337071215879496198504700, 337211106018267331693700, 337250937070205320930000,
  337750724798000317100100, 338060885374144087579400, 338310763972747505036700, 338361050056688538151500, 338530605232902218255700,
  338790701421169537905200, 339071193565141067083600, 339450963306631767679100, 339800701713140548238600, 340131285194214254499200,
  340280784799583659953300, 340741001872879848877500, 340931040959510717578800, 341541077250060086515600, 341570763972747505036700,
  341641285194214254499200, 341800721536841758224100, 342531285194214254499200, 342561285194214254499200, 343141285194214254499200,
  343821285194214254499200, 343880779888613256478400, 343940650455293288898150, 343950650455293288898150, 344071098013996564340000,
  345420917564147063791500, 348501146564778142510100, 348750917564147063791500, 348800825682229241040100, 348921146564778142510100,
  349090695067586335515800, 349280740520477087868200, 349870688451417326525100, 350821106018267331693700, 351311244647703443682700,
  352010689481027451751500, 352110883555912179260300, 352150929659408105557700, 352420617422915656822100, 352650883555912179260300,
  352680929659408105557700, 352990998974126161552300, 353421071187597904872000, 354350756115304241774700, 354370760491807038450600,
  354430625343311393047600, 354520904527965277467200, 354691159917917404962400, 354800833015356549595200, 354880691572606966748800,
  355190808976820774723600, 355590976089968918667600, 355711001872879848877500, 356090748596612752314000, 356410580051951375044200,
  356720969494172139487800, 357481159917917404962400, 357521071187597904872000, 357820969494172139487800, 358010904527965277467200,
  358020691572606966748800, 358090760491807038450600, 358140625343311393047600, 358150756115304241774700, 358250833015356549595200,
  358430808976820774723600, 358560976089968918667600, 358651001872879848877500, 358780748596612752314000, 358800580051951375044200,
  359050915064016843249700, 359200464959669165330400, 359371060065034393849700, 359460653297402879855700, 359981090603199348967900,
  360070623120249147147500, 360100761284413565692650, 360200807702918196980600, 360270767579240997116200, 360280809835195143862700,
  360620823188334406315000, 360660929659408105557700, 360670891036033487530200, 360740849523331585540000, 361261090603199348967900,
  361320929659408105557700, 361331021288481292973300, 361360849523331585540000, 361380761284413565692650, 361390623120249147147500,
  361480809835195143862700, 361490807702918196980600, 361530767579240997116200, 361750823188334406315000, 361960890069842396356500,
  362080998974126161552300, 362150866228740051856700, 362290821721315431535600, 362990915064016843249700, 363001244647703443682700,
  363431050056688538151500, 363670806445039976294500, 364260818850304843292400, 364571032621349823673600, 364611083703912200272700,
  364741050056688538151500, 364811014389194144278200, 365620996157038464882700, 365750781824157551774000, 366110445827343741425200,
  366290566504112213336000, 366370711860086564724600, 367130996157038464882700, 367190781824157551774000, 367310566504112213336000,
  367390445827343741425200, 367450711860086564724600, 367630733248322735341900, 367711114719405030656700, 367760808550380896077800,
  367771354508932310493700, 367831354508932310493700, 367970773095879127987000, 367981114719405030656700, 368020941795493805984500,
  368050759444677051721050, 368070709936950371935900, 368170725167004425845500, 368281001872879848877500, 368300471104368193713900,
  368310673605001706195800, 368370884460895731252000, 368430742479190415398600, 368550729126051152946350, 368660512484765776515000,
  368700996157038464882700, 368740856148270139660100, 368770881770150439259700, 368790647776947445146200, 368871040959510717578800,
  368900718378684553194200, 368961354508932310493700, 368990471104368193713900, 369130715821000374229200, 369240858224469284503000,
  369420709936950371935900, 369460971644792661584200, 369481114719405030656700, 369510708989075976481500, 369530713327105539504000,
  369560856148270139660100, 369601001872879848877500, 369650713327105539504000, 369690512484765776515000, 369780673605001706195800,
  369860708989075976481500, 369880773095879127987000, 370001175332985387688300, 370031004858176163845800, 370340843310153474839400,
  370570834659229183911000, 370730789611508494373100, 371450993417141046071200, 371650789611508494373100, 371970656222657163599400,
  372190978388920741137400, 372210985620986899100000, 372390937070205320930000, 372400783797905835606100, 372550890069842396356500,
  372660862510839727681100, 372760783797905835606100, 373250319502670940442850, 373260778934710951802500, 373291045404686974662100,
  373891354508932310493700, 375041114719405030656700, 375550846368495812047400, 375590983151725640062900, 375860818850304843292400,
  376101011110211861979000, 376581071187597904872000, 376790955610527654066300, 377821114719405030656700, 378060780208613529545500,
  378470925462988195654600, 380451354508932310493700, 381261071187597904872000, 381341114719405030656700, 381381011110211861979000,
  381430925462988195654600, 381440983151725640062900, 381451114719405030656700, 381550818850304843292400, 381600846368495812047400,
  381690955610527654066300, 382150780208613529545500, 382630610025604921274300, 382710610025604921274300, 382811050056688538151500,
  382830722432102885435400, 382900912624871530834000, 383460880015719474168600, 383641045404686974662100, 383811050056688538151500,
  383860912624871530834000, 383910892011650982066600, 383931090603199348967900, 384200880015719474168600, 384511077250060086515600,
  384520716327330569883900, 384701285194214254499200, 384720826697466387442000, 384760734458014906224700, 384970777364819997492100]

def emitB0_3 : List Nat := [
  385050710733767336853500, 385120716327330569883900, 385150826697466387442000, 385201285194214254499200, 385251077250060086515600,
  385340749771714405865900, 385430848884351775663000, 385440718898166240904600, 385680848884351775663000, 385700710733767336853500,
  385770718898166240904600, 385891007935342030521000, 385900575687776525786100, 385960674826560483008200, 385970841519060818186300,
  386031007935342030521000, 386200843914384920435600, 386260846368495812047400, 386270575687776525786100, 386460753382214870077500,
  386651146564778142510100, 387060945074476088283600, 387121285194214254499200, 387280590304492023168000, 387380885374144087579400,
  387390910243806661462000, 387450855465673632620100, 387460910243806661462000, 387480855465673632620100, 387520850813672069130800,
  387531244647703443682700, 387540906775250862673000, 387580888165022899287000, 389110795410234259408000, 389140951973763236978800,
  389180732648920341320800, 389290704080114956829100, 389570705740530462032640, 389690842112534370167900, 389710633500969493414900,
  390031134786474576871700, 390101114719405030656700, 390151054935704955094500, 390230566997004206464400, 390300951973763236978800,
  390340732648920341320800, 390370704080114956829100, 390381054935704955094500, 390570633500969493414900, 390590842112534370167900,
  390621077250060086515600, 390711114719405030656700, 390721134786474576871700, 390800766735354132529800, 391080973842683333461800,
  391180766735354132529800, 391280973842683333461800, 391311244647703443682700, 391341244647703443682700, 391650827208976454119000,
  391780993417141046071200, 392810827208976454119000, 393210875759758032289000, 393400901248982995168100, 393481040959510717578800,
  393611098013996564340000, 393771124250423011089000, 394051024925245710060800, 395010941795493805984500, 395090727032730186299800,
  395140524108935214974100, 395320901248982995168100, 395351040959510717578800, 395391098013996564340000, 395491124250423011089000,
  395530941795493805984500, 395560727032730186299800, 395591024925245710060800, 395990836893959053110800, 396360803975778717257400,
  396400449070125290264100, 397191090603199348967900, 397290834659229183911000, 397401045404686974662100, 397450870090223664634600,
  397910920128390125125300, 398540614324774436110750, 398731244647703443682700, 400650920128390125125300, 400920614324774436110750,
  400961244647703443682700, 405651159917917404962400, 405991285194214254499200, 406350758408398348166400, 406551007935342030521000,
  406570702152701695542450, 406640836893959053110800, 406870896012184443436500, 406921146564778142510100, 407231193565141067083600,
  407780658189933723470000, 407840658189933723470000, 408230967388831219704700, 408440967388831219704700, 408480640781088584455100]

def emitB1_0 : List Nat := [
  199810902546412616988600, 199870695499125447281050, 200050330304683936832830, 200270388380056966722660, 201790620920034042744400,
  201800411228416822434400, 203020836868458978081600, 203890763916976504999600, 204890620920034042744400, 205980724568084798854700,
  207090763916976504999600, 208050323900505294081200, 208070895647125468293500, 208400321453701406235800, 208440305712199648275850,
  209340946729687844892500, 209451056590916711703600, 209820895647125468293500, 209990484559739050962350, 210510700108236167307800,
  211620356012014786353300, 211711005508354335104400, 211910936193636279109900, 212141005508354335104400, 212200692832300739065000,
  212540771327773720371700, 214500361222495624649880, 216080877414969788898000, 216441166452145578514500, 221960330304683936832830,
  223430732071603393146100, 223620435597865824595500, 223740844564563091694400, 225330435597865824595500, 227660829722562579867000,
  227670829722562579867000, 228230490642695135741400, 229490587150784740100100, 229960895647125468293500, 233961166452145578514500,
  234330958507991410531000, 234360246090362956978930, 234541097137427522520000, 234940368518256052281770, 235261097137427522520000,
  235450775249845035699900, 235600695499125447281050, 235650775249845035699900, 235670474187756430925800, 241790917961480599714500,
  244430393875001419719340, 245050393875001419719340, 246130701056110562762100, 246460926662618298677500, 246530844564563091694400,
  246580926662618298677500, 247360857347900242683000, 247540971861130672983200, 247780753738707074005400, 248711027822709466525500,
  249080525106249861778800, 249510686050041105188900, 250620700108236167307800, 252120883130811172892800, 252891166452145578514500,
  253070795094938908083700, 259431166452145578514500, 260800861999901806172300, 261260336997194064146600, 261740378788299480968240,
  262220310025385698297870, 262740958507991410531000, 264261027822709466525500, 265240717588508605300500, 272311027822709466525500,
  274910295176148082493260, 274941056590916711703600, 275750909957209832360900, 277840779332044487725400, 277850779332044487725400,
  277940736045636258097500, 278090736045636258097500, 281651166452145578514500, 282341056590916711703600, 283100946729687844892500,
  289090779332044487725400, 289610861999901806172300, 291050779332044487725400, 292820917961480599714500, 293011166452145578514500,
  293091166452145578514500, 294080987276198655709000, 294200694602258449005000, 294360680470905142347250, 294621056590916711703600,
  294670777270115767451800, 295440694602258449005000, 300210958507991410531000, 301300926662618298677500, 301420889193273354536400,
  304500530321897821215000, 304520246878723619832470, 308300341207536553819300, 309060341207536553819300, 312150271450742625088800,
  312830584741029582194100, 313090271450742625088800, 313370584741029582194100, 313610270366861046277400, 315480987276198655709000,
  318400987276198655709000, 318950655857598188456400, 319340530321897821215000, 320270987276198655709000, 320390497367917836658200,
  321911097137427522520000, 322020497367917836658200, 324390987276198655709000, 325011097137427522520000, 327840790332134009158250,
  328991027822709466525500, 329011027822709466525500, 329421005508354335104400, 335101097137427522520000, 335210946729687844892500,
  335371027822709466525500, 335790883130811172892800, 336090958507991410531000, 340280769422954223302300, 343940758698401187942600,
  343950758698401187942600, 354430507834980093047100, 354690394140136351881360, 357480394140136351881360, 358140507834980093047100,
  360271166452145578514500, 360281166452145578514500, 361331166452145578514500, 361481166452145578514500, 361531166452145578514500,
  362290971861130672983200, 363620627089390943278300, 364040627089390943278300, 366290987276198655709000, 367310987276198655709000,
  367981056590916711703600, 368050291987401746761300, 368070500908110541749800, 368660557547658033829900, 368770909957209832360900,
  369130877414969788898000, 369420500908110541749800, 369481056590916711703600, 369690557547658033829900, 385340823053425129999800,
  385430424334392718975100, 385680424334392718975100, 389180419202071104758700, 390230378788299480968240, 390340419202071104758700,
  395140753738707074005400, 395991005508354335104400, 406641097137427522520000, 407780889193273354536400, 407840889193273354536400]

def emitB3_0 : List Nat := [
  200050451373524635247500, 202600839185670010494000, 203020615826447859784600, 205590654603000960660900, 206630839185670010494000,
  208070625179053660866900, 208440949046898877305000, 209140857417825689889500, 209190590695005031693900, 209320729324441143683000,
  209820625179053660866900, 210180704812195340384500, 210830704812195340384500, 211600404373161710673900, 212050404373161710673900,
  213290769870951954499500, 213550266067525126062400, 213610260087768041858340, 216080949046898877305000, 216960566182759228395400,
  219161018361616933299500, 221960451373524635247500, 222560188507662395811500, 228101018361616933299500, 229370857417825689889500,
  234330143293313454840330, 236040908500388066488500, 236070908500388066488500, 240370747556596823078500, 241890778572089653462400,
  245511018361616933299500, 245551018361616933299500, 246460489031134460850200, 246560320168149217660600, 246580489031134460850200,
  246940908500388066488500, 247360769870951954499500, 247540539612442655094900, 247580569497979960085500, 248010908500388066488500,
  249621018361616933299500, 260801018361616933299500, 262140516633633251807000, 265430839185670010494000, 265800671788026653326800,
  281140729324441143683000, 281650949046898877305000, 282010322042618346275700, 283310322042618346275700, 289020615826447859784600,
  289611018361616933299500, 290330615826447859784600, 293691018361616933299500, 293780810417462765315800, 294080600922889943735800,
  294360575279937048968100, 294770718788389577900400, 294941018361616933299500, 301401018361616933299500, 301710259125004081319870,
  306830202538625237350200, 310360481297814120533200, 311500481297814120533200, 313540700556233898504900, 319341018361616933299500,
  320470587955107612882500, 326541018361616933299500, 327840623237245075156700, 331040309771470496738340, 332580605648178428790300,
  334851018361616933299500, 339801018361616933299500, 349070266067525126062400, 349090857417825689889500, 352990696474034446479400,
  354881018361616933299500, 358021018361616933299500, 360000718788389577900400, 360070551078733487108900, 361270718788389577900400,
  361390551078733487108900, 368550949046898877305000, 369130949046898877305000, 370341018361616933299500, 372400908500388066488500,
  373261018361616933299500, 382900608927160711089400, 383860608927160711089400, 383910569497979960085500, 384520547408596802066100,
  385120547408596802066100, 386460823770602027768100, 387530839185670010494000, 396400949046898877305000, 406350360575481161194800,
  406871018361616933299500]

def emitB4_0 : List Nat := [
  199680393415117034820000, 199691236207589400625500, 199710791942463751593800, 199750566627697694776300, 199770506769859471743400,
  199780363559469756624850, 199790592913580126707500, 199810658442357078359800, 199870539228522410466600, 199900763468807529391500,
  199940653607578662580500, 199960589748759031629350, 199970726220946618205700, 200040568499243275911950, 200061126346360533814600,
  200070972301856439099600, 200130354448185773046200, 200180918402206365831000, 200200418850040737210200, 200270162718034466129000,
  200521236207589400625500, 200561097578153288636400, 200570927103344064793900, 200610922658167807710500, 200650987716924421825500,
  200700659688479122141000, 200801075263798157215500, 200830883571536939009400, 201071057031642477820000, 201080431905500870797300,
  201140987716924421825500, 201160667171643968219500, 201231166892871344631000, 201320877855695555014600, 201351075263798157215500,
  201460686490766871305300, 201540620086857231117900, 201591005949080101221000, 201740607236032309725800, 201791166892871344631000,
  202190742760196087556300, 202230823494150896116400, 202251041616574495094100, 202480505554449506675050, 202491166892871344631000,
  202540899478006401978000, 202560958948717176647300, 202660979712653654471800, 202800965402569290404400, 203020645127924996572800,
  203161236207589400625500, 203670889633999120652800, 204150761714376564300450, 204200918402206365831000, 204450910397935598477300,
  204490833672420327110500, 204891166892871344631000, 205050703906591486784700, 205510845005288857810800, 205560721458141719280200,
  205591041616574495094100, 205980877855695555014600, 206050979712653654471800, 206320899478006401978000, 206331057031642477820000,
  206590958948717176647300, 207401005949080101221000, 207780505554449506675050, 208051097578153288636400, 208080656906228562211150,
  208090855541340423593500, 208130958948717176647300, 208390601293690262645700, 208400528965399346888400, 208410568499243275911950,
  208430820319281064658200, 208440419927454051418100, 208450922658167807710500, 208490708907633544250800, 208690601293690262645700,
  208820972301856439099600, 208910584588281796329050, 208920798004925933237350, 208961236207589400625500, 209080914320006913805400,
  209191041616574495094100, 209231166892871344631000, 209411166892871344631000, 209731057031642477820000, 209860860087577831269300,
  209920952886254995004000, 209980650987341423178100, 209990892808868952111000, 210090585181755348310500, 210100750226348964458300,
  210191166892871344631000, 210210595025762629635800, 210290807161645285786400, 210350807161645285786400, 210661166892871344631000,
  210690691103744044055500, 211030767072801177711100, 211091166892871344631000, 211230750226348964458300, 211520808540977499020000,
  211550787343952427411500, 211601236207589400625500, 211610710458052197847300, 212051236207589400625500, 212430896087851234409900,
  212480896087851234409900, 212530996418062120788400, 212701166892871344631000, 212710625728266159127000, 213060709938570510136900,
  213070674167502828910500, 213120709938570510136900, 213131166892871344631000, 213150914320006913805400, 213191236207589400625500,
  213220728067152902179200, 213260896087851234409900, 213271075263798157215500, 213321075263798157215500, 213330452689213873950700,
  213350723217717908318100, 213451005949080101221000, 213510855541340423593500, 213550847025559589562800, 213630830163288345983700,
  213650795535664674200200, 213671236207589400625500, 213781236207589400625500, 213810931755345628283200, 213820686490766871305300,
  213871005949080101221000, 214070687727896051560000, 214101028263435232641900, 214390669219497102573500, 214520528204939408366500,
  214530918402206365831000, 214570910397935598477300, 214641126346360533814600, 214751166892871344631000, 214760545832863642165660,
  214820853343449751716000, 214830965402569290404400, 214870720302059479172600, 214880869851424787661000, 214900720302059479172600,
  214910725008810564971200, 214961041616574495094100, 215081166892871344631000, 215120831902462617170500, 215141166892871344631000,
  215160422878203278362100, 215180658133237821392600, 215210862440627572288700, 215440737164330722751900, 215481126346360533814600,
  215510947170413611009100, 215600987716924421825500, 216290972301856439099600, 216441075263798157215500, 216971236207589400625500,
  217131097578153288636400, 217330793125909516294100, 218070434641827944891550, 218300996418062120788400, 218541097578153288636400,
  218550947170413611009100, 218700886556833253977500, 219300972301856439099600, 219321236207589400625500, 219340452689213873950700,
  219430748687857080510350, 221200931755345628283200, 221320748687857080510350, 221360737164330722751900, 222270886556833253977500,
  222350711505182184576900, 222420927103344064793900, 222531236207589400625500, 222660630763654773688500, 222690490909356454079500,
  222780889633999120652800, 222830490909356454079500, 222901236207589400625500, 222910889633999120652800, 222960927103344064793900,
  223031041616574495094100, 223120654794536218118850, 223200780819900240571400, 223521097578153288636400, 224021236207589400625500,
  224780653607578662580500, 226120880672783251684200, 226351041616574495094100, 226811057031642477820000, 226860996418062120788400,
  226960910397935598477300, 227211028263435232641900, 227391005949080101221000, 227631057031642477820000, 227880857788626008799300,
  227911057031642477820000, 227970710458052197847300, 228060564669250767157400, 228100493374269981544900, 228120914320006913805400,
  228211166892871344631000, 228230328138873025694300, 228250456355284038104900, 228360686901445066570650, 228410855541340423593500,
  228460855541340423593500, 228550722041233750359500, 228651057031642477820000, 228711166892871344631000, 228990902987138383105000,
  229930952886254995004000, 231301097578153288636400, 232650864850382730194800, 232670914320006913805400, 232730811358065195689600,
  233801126346360533814600, 233960987716924421825500, 233980906623902800192600, 234020828453845010053600, 234160906623902800192600,
  234230828453845010053600, 234500677108891349539800, 234540784028731695721400, 234670979712653654471800, 234700979712653654471800,
  234780862440627572288700, 234811126346360533814600, 234851075263798157215500, 234941057031642477820000, 235001236207589400625500,
  235260784028731695721400, 235321075263798157215500, 235451097578153288636400, 235481236207589400625500, 235581166892871344631000,
  235591166892871344631000, 235600539228522410466600, 235651097578153288636400, 235661236207589400625500, 235670499184525219917400,
  235690996418062120788400, 235740773710308072198400, 236160947170413611009100, 236370972301856439099600, 236530728690207877242800,
  238530672372122467250900, 239400672372122467250900, 240300811358065195689600, 240370762587744561175900, 240380952886254995004000,
  240400530331774148759000, 240521075263798157215500, 240620941763691483981400, 240660675260409882129500, 240671236207589400625500,
  240720927103344064793900, 241070927103344064793900, 241200514316618638719450, 241790773710308072198400, 241800528204939408366500,
  241821126346360533814600, 241880952886254995004000, 241910443475153369646100, 242120809939601696494000, 242230835474270877378400,
  242371041616574495094100, 242460987716924421825500, 242581028263435232641900, 242881236207589400625500, 242900835474270877378400,
  242910443475153369646100, 243070931755345628283200, 243140843025026128192900, 243200821894116761472300, 243220666498240750085000,
  243591057031642477820000, 243690899478006401978000, 243750747927397141988400, 243780747927397141988400, 244180979712653654471800,
  244250616563176621173400, 244261166892871344631000, 244330632420497408411700, 244480952886254995004000, 244600658133237821392600,
  244661005949080101221000, 244780607236032309725800, 244810769863679989418800, 244900996418062120788400, 244940626175694198619050,
  245031028263435232641900, 245150703906591486784700, 245360896087851234409900, 245440886556833253977500, 245551166892871344631000,
  245651005949080101221000, 246130678992186182849000, 246350628903135990585050, 246741236207589400625500, 246940681689844952669200,
  247581097578153288636400, 247990616971340453138300, 248010681689844952669200, 249300557875069340229500, 249771057031642477820000,
  250330809939601696494000, 251040715806920692946000, 251520322076410844050800, 251530658133237821392600, 251630584440462109398000,
  251930952886254995004000, 252151028263435232641900, 252161236207589400625500, 252390910397935598477300, 252400847025559589562800,
  252771041616574495094100, 253111126346360533814600, 253291028263435232641900, 253461166892871344631000, 253531097578153288636400,
  254141041616574495094100, 254800910397935598477300, 254840768924705954434900, 254991166892871344631000, 255041097578153288636400,
  255090927103344064793900, 255520804458778046994500, 256680965402569290404400, 256701028263435232641900, 258361126346360533814600,
  258440952886254995004000, 258501028263435232641900, 258850965402569290404400, 259371236207589400625500, 259431166892871344631000,
  259451075263798157215500, 259500875115798136203000, 259550803134255371992400, 259681041616574495094100, 259720346644626686977240,
  259761041616574495094100, 260120941763691483981400, 260290867319643989231900, 260320386141867123011700, 260390867319643989231900,
  260590877855695555014600, 260800450420833467445200, 260820527617442964064400, 260850507519948225555500, 260870718592616143242600,
  261021075263798157215500, 261031016485131667003500, 261261097578153288636400, 261311097578153288636400, 261430804458778046994500,
  261510914320006913805400, 261740758295240089472600, 261781075263798157215500, 262220910397935598477300, 262340941763691483981400,
  262420607794173293545300, 262620886556833253977500, 262630768924705954434900, 262830607794173293545300, 263361016485131667003500,
  263561166892871344631000, 263600659688479122141000, 263680622434883992002100, 263770433134096990771400, 263990872448973427986900,
  264080678992186182849000, 264101236207589400625500, 264120996418062120788400, 264170814256818883014900, 264260571828616085858200,
  264470841083217542482800, 264490748687857080510350, 264810589748759031629350, 264950778736491550287200, 264970845005288857810800,
  265171236207589400625500, 265240987716924421825500, 265310867319643989231900, 265881097578153288636400, 266110965402569290404400,
  266311236207589400625500, 266410979712653654471800, 266571057031642477820000, 266811041616574495094100, 266891236207589400625500]

def emitB4_1 : List Nat := [
  266911236207589400625500, 267080927103344064793900, 267420896087851234409900, 268160661268290809800200, 268250800536706731666400,
  268370818768862411061700, 268390867319643989231900, 268401166892871344631000, 268931097578153288636400, 269890653607578662580500,
  269970845005288857810800, 271611236207589400625500, 271690736486362024214000, 271780860087577831269300, 271930979712653654471800,
  272240910397935598477300, 272250910397935598477300, 272310571828616085858200, 272430860087577831269300, 272980661268290809800200,
  273311097578153288636400, 274250626850612396111900, 274310837309184744198000, 274681041616574495094100, 274720837309184744198000,
  274910581960393349945000, 275110686490766871305300, 275750843025026128192900, 275970742760196087556300, 276041097578153288636400,
  276050809939601696494000, 276110743482220884905050, 276650456437385848956500, 276680728067152902179200, 276830728067152902179200,
  277000518048394939439000, 277040660317412012897400, 277210902987138383105000, 278331075263798157215500, 278390734479605719133000,
  278610558215398653400300, 278740880672783251684200, 278801016485131667003500, 278881097578153288636400, 279151236207589400625500,
  279540765254569269392100, 279630700548961933424200, 279690794323528620965700, 279730700078372829683000, 279870936634362045226400,
  280230805801080080208500, 280400672372122467250900, 281290693712587652485300, 281450548477982250882700, 281510564306273962099500,
  281540700078372829683000, 281650778736491550287200, 282011166892871344631000, 282071075263798157215500, 282160690249037986209600,
  282461028263435232641900, 282871041616574495094100, 283311166892871344631000, 283780936634362045226400, 283850771768499486488200,
  284140936634362045226400, 284150771768499486488200, 284500902987138383105000, 284591075263798157215500, 285070609108746214795500,
  285080609108746214795500, 286110936634362045226400, 286260899478006401978000, 286291041616574495094100, 286930899478006401978000,
  287481075263798157215500, 287790658442357078359800, 287891126346360533814600, 288570972301856439099600, 288720828453845010053600,
  289071075263798157215500, 289090965402569290404400, 289610450420833467445200, 290310965402569290404400, 291050965402569290404400,
  291451075263798157215500, 291510936634362045226400, 291900936634362045226400, 292380728690207877242800, 292541057031642477820000,
  292550727447955877387100, 293050417951662993759050, 294200730583008865794700, 294210627530116709394800, 294330627530116709394800,
  295440730583008865794700, 296160513368744243265100, 296940513368744243265100, 297021166892871344631000, 299420818768862411061700,
  299430996418062120788400, 299761057031642477820000, 299780886556833253977500, 299801126346360533814600, 299830791942463751593800,
  299861075263798157215500, 300020722627745695599360, 300050559819098544382000, 300070987716924421825500, 300280952886254995004000,
  300500809939601696494000, 300640666498240750085000, 301491236207589400625500, 302460965402569290404400, 303320910397935598477300,
  303330847025559589562800, 303340755805484927299800, 304080914320006913805400, 304180899478006401978000, 304270620509690842070000,
  304370918402206365831000, 304520585928584809063100, 304650599560544627481700, 304950862440627572288700, 305241126346360533814600,
  306931097578153288636400, 306971166892871344631000, 306990996418062120788400, 307010360350638301474820, 307021075263798157215500,
  307030996418062120788400, 307070808540977499020000, 307190828453845010053600, 307401236207589400625500, 307421041616574495094100,
  308280872448973427986900, 309131057031642477820000, 309381041616574495094100, 309521075263798157215500, 309671236207589400625500,
  310140828453845010053600, 310340922658167807710500, 310381097578153288636400, 310481166892871344631000, 310701057031642477820000,
  311420769863679989418800, 311630902987138383105000, 311661236207589400625500, 311690594208096585911250, 311791166892871344631000,
  311850697300416418975400, 312270914320006913805400, 312320833672420327110500, 312370720878429950847600, 312430869851424787661000,
  312460720878429950847600, 312830857788626008799300, 313370857788626008799300, 313540636562380538723400, 313590815738327461528800,
  313831166892871344631000, 314350600250202533387800, 314561075263798157215500, 314810910397935598477300, 315320738534215158568050,
  315610701974164204144400, 315700906623902800192600, 316161016485131667003500, 316650947170413611009100, 316800941763691483981400,
  317771016485131667003500, 318591097578153288636400, 318670864850382730194800, 318810724408208158950000, 318950927103344064793900,
  319090826773133178415300, 319340784028731695721400, 319951005949080101221000, 320001028263435232641900, 320050795535664674200200,
  320200726220946618205700, 320390820319281064658200, 320430695042984215121500, 320680883571536939009400, 320850788473907952804900,
  320971126346360533814600, 321140726220946618205700, 321601057031642477820000, 321781057031642477820000, 322020820319281064658200,
  322180965402569290404400, 322320910397935598477300, 322910669219497102573500, 323170628903135990585050, 323180772734690577661900,
  323401028263435232641900, 324180795535664674200200, 324261028263435232641900, 324310726220946618205700, 324470965402569290404400,
  324520883571536939009400, 324551028263435232641900, 324761126346360533814600, 324770788473907952804900, 324890772734690577661900,
  325111057031642477820000, 325340910397935598477300, 325920931755345628283200, 325931057031642477820000, 325990867319643989231900,
  326450867319643989231900, 326540739923126374634800, 326761166892871344631000, 327640965402569290404400, 327690655694092508976700,
  327840753376215670395400, 328521097578153288636400, 328791097578153288636400, 328931126346360533814600, 329050886556833253977500,
  329331166892871344631000, 329460931755345628283200, 329581166892871344631000, 329740757458415122420900, 330140821894116761472300,
  330261126346360533814600, 330501126346360533814600, 331021166892871344631000, 331040927103344064793900, 331391126346360533814600,
  331840821894116761472300, 332530855541340423593500, 332560418850040737210200, 332580716911904311604400, 332900718592616143242600,
  333280685268755737827800, 333370803134255371992400, 333820685268755737827800, 333910669564920589382200, 333941005949080101221000,
  334100941763691483981400, 334570947170413611009100, 335210883571536939009400, 336090634836073796345350, 336470629365030576214500,
  337070750226348964458300, 337750896087851234409900, 338290936634362045226400, 338360566627697694776300, 338531097578153288636400,
  340130910397935598477300, 340741166892871344631000, 341801005949080101221000, 342530910397935598477300, 342550742760196087556300,
  342760817242115197983000, 342770629365030576214500, 343890857788626008799300, 343940739923126374634800, 343950739923126374634800,
  344250947170413611009100, 345071166892871344631000, 345621166892871344631000, 346311166892871344631000, 347460902987138383105000,
  348211166892871344631000, 348801041616574495094100, 349070847025559589562800, 349131166892871344631000, 349350855541340423593500,
  349550936634362045226400, 349660820319281064658200, 349870853343449751716000, 350100972301856439099600, 350130501735683985658300,
  350330952886254995004000, 350370501735683985658300, 350410896087851234409900, 350640761714376564300450, 351990722627745695599360,
  352420686490766871305300, 353021057031642477820000, 353201057031642477820000, 353301166892871344631000, 353360958948717176647300,
  353421236207589400625500, 353520812796938940899600, 354981097578153288636400, 355060922658167807710500, 356860972301856439099600,
  357221126346360533814600, 357450958948717176647300, 357461166892871344631000, 357521236207589400625500, 357600812796938940899600,
  358281097578153288636400, 358380922658167807710500, 359101166892871344631000, 359981126346360533814600, 360000549306144334054800,
  360111041616574495094100, 360151236207589400625500, 360231075263798157215500, 360390604852784772916000, 360740784028731695721400,
  361261126346360533814600, 361270549306144334054800, 361331166892871344631000, 361360784028731695721400, 361421236207589400625500,
  361431041616574495094100, 361640604852784772916000, 361960896087851234409900, 362050952886254995004000, 362081236207589400625500,
  362150807161645285786400, 362290507931471440066200, 363280631707057997024300, 363390906623902800192600, 365540804458778046994500,
  365570584588281796329050, 365750927103344064793900, 366110889633999120652800, 366170705380819660505050, 366290588972959950535500,
  366500710458052197847300, 366671028263435232641900, 367100804458778046994500, 367180710458052197847300, 367190927103344064793900,
  367310588972959950535500, 367330705380819660505050, 367390889633999120652800, 367521028263435232641900, 367860798004925933237350,
  367930733819537315997800, 368071028263435232641900, 368170718592616143242600, 368201126346360533814600, 368280575407526871016800,
  368290889633999120652800, 368300706375852745821800, 368431075263798157215500, 368481166892871344631000, 368550728067152902179200,
  368660812796938940899600, 368700862440627572288700, 368790910397935598477300, 368900965402569290404400, 368950835474270877378400,
  368990706375852745821800, 369380690249037986209600, 369421028263435232641900, 369490889633999120652800, 369600575407526871016800,
  369690812796938940899600, 370020733819537315997800, 370960753376215670395400, 371171166892871344631000, 371290987716924421825500,
  372021016485131667003500, 372331236207589400625500, 372401236207589400625500, 372910674167502828910500, 372921236207589400625500,
  373240896087851234409900, 373250577177484580956900, 373260523679280249554400, 373290784028731695721400, 373410776695604387166500,
  375040786226622367599000, 375690883571536939009400, 376280899478006401978000, 376721236207589400625500, 377491005949080101221000,
  377750845005288857810800, 378061236207589400625500, 379391166892871344631000, 379410883571536939009400, 380240776695604387166500,
  380500899478006401978000, 380810883571536939009400, 381090883571536939009400, 381340786226622367599000, 381701236207589400625500,
  381901005949080101221000, 382151236207589400625500, 382531166892871344631000, 382630601819545987992400, 382710601819545987992400,
  382750996418062120788400, 382810987716924421825500, 382830821894116761472300, 382900849087488309836400, 382910530849016681257900,
  383780996418062120788400, 383810987716924421825500, 383860849087488309836400, 383880530849016681257900, 383911097578153288636400]

def emitB4_2 : List Nat := [
  384500855541340423593500, 384520918402206365831000, 384540820319281064658200, 384631166892871344631000, 384680546134522996108300,
  384801097578153288636400, 385120918402206365831000, 385420820319281064658200, 385430790772859775274700, 385440637813961331906500,
  385480656601814324088300, 385680790772859775274700, 385770637813961331906500, 385960653902999852323600, 385980820319281064658200,
  386040700548961933424200, 386130786226622367599000, 386170528204939408366500, 386260902987138383105000, 386341028263435232641900,
  386510559819098544382000, 387281126346360533814600, 387380657825071167651700, 387470867319643989231900, 387500422760832372869300,
  389140922658167807710500, 389180987716924421825500, 389280877855695555014600, 389360979712653654471800, 389570686901445066570650,
  389890639849655038780900, 390060864850382730194800, 390150831902462617170500, 390230758295240089472600, 390300922658167807710500,
  390340987716924421825500, 390380831902462617170500, 390440877855695555014600, 390460979712653654471800, 390690639849655038780900,
  390800853343449751716000, 391180853343449751716000, 391311126346360533814600, 391341126346360533814600, 391350731221988675671800,
  391641097578153288636400, 392821097578153288636400, 393180536447991102432800, 393210952886254995004000, 393401097578153288636400,
  394381126346360533814600, 395321097578153288636400, 395691126346360533814600, 396400423614909129836900, 397640947170413611009100,
  398540972301856439099600, 400920972301856439099600, 402850896087851234409900, 403860979712653654471800, 404411097578153288636400,
  405170896087851234409900, 405420979712653654471800, 405601097578153288636400, 406130896087851234409900, 406140896087851234409900,
  406350899478006401978000, 406431016485131667003500, 406441016485131667003500, 406570702935710074088600, 406700972301856439099600,
  407780922658167807710500, 407840922658167807710500, 408450889633999120652800, 408570889633999120652800]

def emitB6_0 : List Nat := [
  199680475541607894803150, 199810256813987225911900, 199820475836072182958800, 199880626317563615533300, 200060423028573016383000,
  200260739007263866202500, 200350590345089869709200, 200430552206073793421400, 201080633616052891182200, 201100411045648025373400,
  201740410124265585689800, 201970277661719825070550, 202940308889162954240340, 203090583106557985481600, 204980966836503908702700,
  205040529739935177256900, 205510619764159477626000, 208540504614109853310660, 208550848052161669097300, 208770618282650899112000,
  209170644152104456964800, 210290809974912117318100, 210350809974912117318100, 211520619267880543413100, 213630411416591263700600,
  214481288724086395522600, 214500452716942831120100, 214530662765939989030350, 214780365533471406448340, 214820376748187021028200,
  214870397369058346155240, 215160292242305626749270, 215420526849848628481300, 217380625655747831285500, 222400212320787466057450,
  222660654160450312663060, 229140276253160566758730, 234251150094650283533500, 235271150094650283533500, 235720787660556985897100,
  235780752594869824580100, 236010723826662579402050, 236130404897918106957460, 236821048934559115685500, 241820423028573016383000,
  242460933189280246581300, 244780410124265585689800, 245900865313435935796700, 246350566030484546193800, 246880803521060003561000,
  247990939073330248874600, 249301040233421416722600, 251100373601375647155050, 251520314175305606798760, 252330792439623369531900,
  254420689577631684724500, 255090453374376520977850, 255630689577631684724500, 259250793848097357705800, 260440411045648025373400,
  260800472216160515015900, 260820481570997039856700, 261590644470069748702800, 263560917366879725091900, 265240879289630173312600,
  270101178862857528711700, 274920381777305086045930, 275950901603985304733500, 278410644152104456964800, 288580739007263866202500,
  289610472216160515015900, 289820330595781790930230, 292460787660556985897100, 299780882679785340880800, 299970893599714537379900,
  300010272930491027647640, 304330404897918106957460, 304560859678142280683500, 320390673026187836967100, 321560799689173573347300,
  322020673026187836967100, 323050720026550761540650, 323170566030484546193800, 323800694970465887280000, 324370720026550761540650,
  324870694970465887280000, 325080799689173573347300, 327800294280332509014400, 332870475836072182958800, 335090745789523500078600,
  337070933189280246581300, 344290316899913973030000, 352010507405359643381000, 353730893599714537379900, 357740893599714537379900,
  359121048934559115685500, 366810669487837448035400, 367160669487837448035400, 368240426767160592212200, 368250760912620472470900,
  368270586259183350159050, 368890760912620472470900, 369140586259183350159050, 369960426767160592212200, 370270590530618679883800,
  385000585021324926895050, 386140316899913973030000, 387500787660556985897100]

def emitB7_0 : List Nat := [
  199680270121338657847800, 199750771088862400818350, 199791299915565470271900, 199810291232623273531740, 199820995463321697929600,
  199870549834981169892200, 199940816684989613088000, 200051029110545360050800, 200060587065970902268200, 200130786630272788221300,
  200201000342338114872800, 200301022656693246293700, 200370762156510726017360, 200540921496602078445700, 200560711166369797771500,
  200630523337455197840200, 200700894737070689941300, 201050856240412033959000, 201070706691046725470800, 201100834044470178659700,
  201110868835652931720400, 201140565056812377512600, 201231051424900491471900, 201271047342701039446300, 201321299915565470271900,
  201460537551370819114600, 201540723396455191787400, 201650599836550975339200, 201730460763907137448300, 201740459334105126987100,
  201951208286492282856300, 201970591660708534741900, 202080860470650003028000, 202190726743381135727600, 202230609641291754412600,
  202501230600847414277300, 202820911759185675928100, 202840497282207441159400, 202940880195370704091000, 203020696967304040721600,
  203090575958180778071600, 203511120739618547466400, 203551060126038190434800, 203810483749520264643600, 203910896491501655032300,
  204201043420629724118200, 204450899182246947024800, 204490986366143877356900, 204930968496965003019400, 204950870187024848392800,
  204980934849741340898000, 205110806109105344129900, 205421112735347780112800, 205590694589070668929000, 205811208286492282856300,
  205960896491501655032300, 205980702661911748025500, 205990730879620037865800, 206331174639268620735000, 206581005471667553627800,
  206701112735347780112800, 206770599836550975339200, 208000840909910652467500, 208050921496602078445700, 208080500384903441189700,
  208090858031504690612000, 208131055680861933351400, 208400588805145173455100, 208440818291449863468600, 208490507183129439292500,
  208520909718298512807300, 208540485520242409990800, 208730868835652931720400, 208770440305886569101550, 209150742510228672130200,
  209171120739618547466400, 209190819513460996946300, 209340920366646553052400, 209600473132166141910300, 209610680781618321988100,
  209730878702805682423400, 209980422701021545761900, 209990819104462471793800, 210180539675431903690050, 210210584336910889859200,
  210290993110271956910200, 210350993110271956910200, 210400507743861667298000, 210510806109105344129900, 210830539675431903690050,
  211280855063927876000400, 211520853324753604813500, 211530763551882203403900, 211600780898044677438500, 211830743847402368719100,
  212050780898044677438500, 212090763551882203403900, 212180743847402368719100, 212430995463321697929600, 212480995463321697929600,
  213051299915565470271900, 213130452434817978291900, 213150982110182435477300, 213220950264809323623900, 213271091971411302288300,
  213321091971411302288300, 213330622207869936269700, 213630563050056072431600, 213640553121332241686700, 213710553121332241686700,
  213820705504480397820700, 213850772104099547220100, 213870851051928497057900, 214021036009832508746000, 214070450974484429893250,
  214260772104099547220100, 214500819924139192211500, 214520815891334653514400, 214530487871563079262400, 214751208286492282856300,
  214760924965157877234700, 214780830323110544616200, 214820447409350490778600, 214870832632682024081200, 215121025831563077751700,
  215160466348433990987100, 215210642198994918363900, 218070858635736136208300, 219340622207869936269700, 221580941563671624660800,
  221961029110545360050800, 222350691011077925587300, 222400956516845021757200, 222420866186491387022900, 222510934849741340898000,
  222960866186491387022900, 223121000342338114872800, 225190844002940721603400, 225220617641375004753800, 225301161286129358282800,
  227390851051928497057900, 227880725455118552626200, 227911174639268620735000, 228100556815223195603350, 228230340022509184321640,
  228250964925156742811300, 228260997873076855835500, 228361047342701039446300, 228590778150619122213700, 228940778150619122213700,
  229090595120374522729800, 229140773646546579783300, 229870585474847438157900, 229930918144332874581400, 229960978027982983451800,
  230591149507825792644400, 231131039646596925833500, 233840997873076855835500, 234250723867783636997200, 234500574923011798473100,
  234540463406524149643900, 235260463406524149643900, 235270723867783636997200, 235450644451025349481700, 235580702153651441678900,
  235590702153651441678900, 235600549834981169892200, 235650644451025349481700, 235670649711551508395500, 235690893871264415629900,
  235780571536407830322900, 235880492965680561238200, 236010472863055964764800, 236130530909828384974300, 236210679459789213402800,
  236220724183241311848750, 236260724183241311848750, 236490769088795730151400, 236500769088795730151400, 236731299915565470271900,
  236820819104462471793800, 237431208286492282856300, 240111208286492282856300, 240131022656693246293700, 240381174639268620735000,
  240460715996854304031400, 240500307280643302332820, 241020976047720253833800, 241091085908949120644700, 241180976047720253833800,
  241200562892501289563700, 241611161286129358282800, 241780688547347487048700, 241790880195370704091000, 241820587065970902268200,
  241840700644188819430450, 241850688547347487048700, 241900473132166141910300, 241910851051928497057900, 242071174639268620735000,
  242910851051928497057900, 243201080193107736649900, 243220692726385848212200, 243750772615609613897200, 243780772615609613897200,
  244030461824048157910900, 244430947279513008655600, 244480524167688811854000, 244520759422855309642400, 244530920366646553052400,
  244560490554062682157300, 244640869509056149855000, 244650759422855309642400, 244660859855263445590100, 244780459334105126987100,
  244901039646596925833500, 244940661903311780295300, 245050947279513008655600, 245170402605775842024700, 245250963185982471624400,
  245361112735347780112800, 245370903834248510514000, 245550507002916739591900, 245730522157251825676700, 245811039646596925833500,
  246130610600652810994300, 246160954916810887113000, 246180834996858329785300, 246350529321773232675500, 246530879446303531175200,
  246560608194521694982600, 246750958142897108935200, 246800786042035797914700, 246880644593475516020300, 246940974105911668123700,
  247080653145692859836500, 247130814712539078310100, 247170980048253715203700, 247571039646596925833500, 247581112735347780112800,
  247630892161821079700000, 247990874354294488449600, 248010974105911668123700, 248150956516845021757200, 248190748371280916603500,
  248400678554805661411000, 248680866842231441638800, 249300589995391114962600, 249310956516845021757200, 249360944380759321330600,
  249770878702805682423400, 249960866842231441638800, 251040789018445988560100, 251100608691047044772900, 251300873647577766140200,
  251520917051425821362400, 251630980048253715203700, 251650937481472172635400, 251711299915565470271900, 251910844002940721603400,
  251961138971774226861700, 252061091971411302288300, 252090863605702991435600, 252691080193107736649900, 252771299915565470271900,
  253110929785368059022600, 253141259369054659455300, 253180922639471660808000, 253201299915565470271900, 253211005471667553627800,
  253400780065862343689300, 253511098425263416045400, 253530724025388082543750, 253840894737070689941300, 254221369230283526266400,
  254540713127216936609100, 255041208286492282856300, 255090742131440340436500, 255521369230283526266400, 255541259369054659455300,
  255621138971774226861700, 255881259369054659455300, 257460990811320134440300, 257651299915565470271900, 257970783723091306023600,
  257991005471667553627800, 258180713127216936609100, 258360929785368059022600, 258711259369054659455300, 258760922639471660808000,
  259130896491501655032300, 259180803631102444281200, 259250637442663663616800, 259540937481472172635400, 259720635341470142378500,
  260070982110182435477300, 260290795250992308342900, 260320825858083170842300, 260390795250992308342900, 260410681500676376523500,
  260440834044470178659700, 260590858635736136208300, 260800480506448096952300, 260850540000472819944300, 260890498135370942680800,
  261020615914402780710100, 261031161286129358282800, 261260742320655155640300, 261271161286129358282800, 261780615914402780710100,
  261791369230283526266400, 262420586506193350985200, 262630615967921647387600, 262830586506193350985200, 263361161286129358282800,
  263560418512245304993400, 263600894737070689941300, 263660563334281749324600, 263680413264451580131800, 263711230600847414277300,
  263770462525563311295800, 264100574781067133050400, 264111120739618547466400, 264120546840745508384300, 264350918144332874581400,
  264970529659954143413600, 265240572953890509454900, 266840695771117528971600, 269890816684989613088000, 269970529659954143413600,
  271780856833885585940500, 272430856833885585940500, 274020918144332874581400, 274251138971774226861700, 274270859243640743846400,
  274900831240548172220400, 274910510260295305967800, 274931208286492282856300, 275110705504480397820700, 275150863605702991435600,
  275301174639268620735000, 275890849380580399683900, 275951129440756246429300, 275990836442666647308300, 276040433976869758330600,
  276050578281334258890400, 276270717315554732226800, 277040570852176628521200, 277700742510228672130200, 277940907718231842140400,
  278090907718231842140400, 278331069657056170867400, 278390834996858329785300, 278411120739618547466400, 278670995463321697929600,
  279630780898044677438500, 281450665001666332292100, 281760603928242145847400, 283040974105911668123700, 283100920366646553052400,
  283850655026626055586100, 284150655026626055586100, 284720603928242145847400, 285070857430902284591000, 285080857430902284591000,
  287790791155931947033400, 289610480506448096952300, 290310688436789156273750, 292290856240412033959000, 292451259369054659455300,
  292551051424900491471900, 292820787519167529946000, 293050428746533056239300, 294080726743381135727600, 294200662583586512570600,
  294670645740441494783200, 294690993110271956910200, 295440662583586512570600, 295750659392719667187700, 296160728048456755276700,
  296940728048456755276700, 297021091971411302288300, 299780440917679356083350, 299830848829614818586900, 299920680781618321988100,
  300010586585969980665000, 300500578281334258890400, 300530755673794418092500, 300640692726385848212200, 300700461824048157910900,
  301420988564034549234400, 301711039646596925833500, 303310805751323209341500, 303330845055582020302200, 303340875066041265336000,
  303400663440489785080700, 304100953341975190299200, 304330530909828384974300, 304521085908949120644700, 304560387639045498248900]

def emitB7_1 : List Nat := [
  304950408412638234280800, 305240793025145248248700, 305280756981002574827800, 306361120739618547466400, 308280795250992308342900,
  308301098425263416045400, 308960941563671624660800, 309061098425263416045400, 311690729871208131203200, 311770997873076855835500,
  312450648222320709187550, 312830665351929387412260, 313370665351929387412260, 313500571708199660925400, 313540826735281778126000,
  313611047342701039446300, 313640771595192596473000, 314350463814854647581000, 314540868835652931720400, 314550573372593144876600,
  314690719101316472227500, 314780868835652931720400, 316160638845960998495950, 317770638845960998495950, 318950978027982983451800,
  320040823698171990496200, 320200795250992308342900, 320270546894393578340600, 320320841418817603214600, 320340765921661346386300,
  320390634693799484579600, 320471000342338114872800, 320480784010035548819000, 320660501947435231497800, 320850531506160427387200,
  321130796871773331028300, 321470552637069794107800, 322020634693799484579600, 322330684748735605440100, 323050750815394432518100,
  323170529321773232675500, 324220823698171990496200, 324310795250992308342900, 324370750815394432518100, 324390546894393578340600,
  324540784010035548819000, 324560501947435231497800, 324630552637069794107800, 324770531506160427387200, 324790796871773331028300,
  325310684748735605440100, 326541016594231064650200, 326761008138492261844000, 327631259369054659455300, 327690849934598437245400,
  327800787519167529946000, 328421098425263416045400, 328520903834248510514000, 328790903834248510514000, 329020914900805299266000,
  329720905757384703302800, 329930784297805531580500, 332561000342338114872800, 332580403580336885076100, 332670483792337649155600,
  332870995463321697929600, 332880909718298512807300, 332891022656693246293700, 332930922639471660808000, 335100816684989613088000,
  336090896491501655032300, 337070707356385174544400, 338360771088862400818350, 338790756981002574827800, 339880906733002197839300,
  340220784010035548819000, 343890725455118552626200, 344070868835652931720400, 348920901947400080075700, 349350934849741340898000,
  349870630027126774807300, 350411230600847414277300, 352110938823774205849500, 352420537551370819114600, 352650938823774205849500,
  354420940184339411427300, 354750947279513008655600, 354880927346222746606600, 355241074786385609622400, 358020927346222746606600,
  358130940184339411427300, 358461074786385609622400, 359051016594231064650200, 359120819104462471793800, 360310800532747892284400,
  361520800532747892284400, 362140512498703444321600, 362150670204633476878350, 362250711166369797771500, 362291010878389680655300,
  362340490036084680654500, 362450512498703444321600, 362750731387665161107800, 362801299915565470271900, 363191299915565470271900,
  364891299915565470271900, 366110555637006325777350, 366290573197920611382400, 366500815103929010423800, 366810829414013374491000,
  367030884027257134304600, 367160829414013374491000, 367180815103929010423800, 367200884027257134304600, 367310573197920611382400,
  367390555637006325777350, 368040779240548168017300, 368050974105911668123700, 368070565121183155403100, 368140794929964745318200,
  368170699526858759617900, 368250818291449863468600, 368270448627173487457900, 368280613014120403701200, 368300540603338247959800,
  368310723553317969050000, 368371138971774226861700, 368660834044470178659700, 368700948761021587169800, 368800418899438640546200,
  368890818291449863468600, 368900512536755195161200, 368990540603338247959800, 369140448627173487457900, 369420565121183155403100,
  369531299915565470271900, 369600613014120403701200, 369651299915565470271900, 369690834044470178659700, 369780723553317969050000,
  369891149507825792644400, 371960927346222746606600, 372191091971411302288300, 373241230600847414277300, 373250493814208593914650,
  375550956516845021757200, 378321299915565470271900, 379411008138492261844000, 380811008138492261844000, 381421299915565470271900,
  381600956516845021757200, 382630470373195904754700, 382710470373195904754700, 382831080193107736649900, 382910870187024848392800,
  383461120739618547466400, 383880870187024848392800, 383911112735347780112800, 384201120739618547466400, 384680963185982471624400,
  384700606038632219141200, 384970840909910652467500, 385050820336510910597700, 385200606038632219141200, 385430441001396397389700,
  385481013695477377325100, 385680441001396397389700, 385700820336510910597700, 385900480520263113897600, 386170815891334653514400,
  386270480520263113897600, 386460893012890046490800, 386690888828179052940600, 386700870869621355432800, 387500446953994328792400,
  389140833101066955323900, 389150886398909796036300, 389180669562134708612500, 389280754811720113701800, 389310624688527856097700,
  389350958142897108935200, 389571047342701039446300, 389710728542284919334900, 389890866842231441638800, 390300833101066955323900,
  390310886398909796036300, 390340669562134708612500, 390390624688527856097700, 390440754811720113701800, 390470958142897108935200,
  390570728542284919334900, 390690866842231441638800, 390871230600847414277300, 391080950264809323623900, 391221230600847414277300,
  391280950264809323623900, 391310842961264635777900, 391340842961264635777900, 393180504777239538523100, 393400638175267672824100,
  394880784010035548819000, 395190795573053778347200, 395320638175267672824100, 395880795573053778347200, 396400490142508103849900,
  397170982110182435477300, 397701091971411302288300, 400601091971411302288300, 406640764021366633824700, 407181043420629724118200,
  407780829867528891030300, 407840829867528891030300]

def emitB8_0 : List Nat := [
  199810000000000000000000]

def emitB10_0 : List Nat := [
  215960255766600407042870, 217030652795791762255000, 217040413006264482418000, 217100052654303966140040, 218340185512908316064420,
  219780255766600407042870, 219920491852000518845100, 219960542934562895444100, 221230652795791762255000, 228250252062473239007940,
  229090286439627149290400, 235780491852000518845100]

def emitB12_0 : List Nat := [
  199680596797248623079600, 199780354800735214539430, 199790427226731366774300, 199940562831743411185400, 199950714942078047805500,
  199960326159732739628100, 200040456610956987098150, 200130334104259164429100, 200430172191096638250190, 201970148099860119774720,
  203910600201832764051300, 205590728555295480263400, 205960600201832764051300, 208080895952938837430700, 208390381786583187164600,
  208410456610956987098150, 208510701361923931899240, 208540580371169947324200, 208690381786583187164600, 210210492479722895372100,
  210690336007915165036540, 212710351363049073448060, 213060997809896936888000, 213120997809896936888000, 213350320704493685857630,
  214530710932632327617700, 214740714942078047805500, 214910567715725194697800, 215160455756397009659300, 215180373214129073067900,
  216080440594493719111500, 222350491842934067101700, 223300904654076536393600, 224780714037094495813650, 225800904654076536393600,
  226591059713817777510200, 228060381381297717114260, 228230932417250196221500, 228250907731242403068900, 228360785170044460127200,
  234670697470382306931900, 234700697470382306931900, 235450611171724489693700, 235650611171724489693700, 236130648159140790239900,
  236140863102532140227000, 236650778087439203266000, 240380564534338370178000, 241800700965883810289550, 242130495017803898559800,
  242371093361041439631600, 243200863102532140227000, 244030524190052097438400, 244600373214129073067900, 260120901668780221425500,
  260490477536104964350800, 260890675308815593316200, 263680322744744419674050, 263990354466431677787860, 264110601217069910453100,
  264810326159732739628100, 265190844870376460831600, 266571014515305403204500, 269890562831743411185400, 270040802125974978137500,
  271550802125974978137500, 274910687662163871798400, 278390390434571801698160, 300700524190052097438400, 303820723974341877134000,
  304330648159140790239900, 312451024046323383637000, 314711115675396571052500, 316490805441195709827600, 316650893213041418619200,
  329220696709922368410000, 329720540022092566879600, 330500594046043464107900, 331390594046043464107900, 348920907731242403068900,
  350410410858478301317500, 351990343396578692846030, 361231075128885760236100, 361951075128885760236100, 362750782454945553532200,
  363190614945757287978450, 363351144443603816230700, 365230553544771287856300, 367930687316740384989600, 368170715397659701391500,
  369130440594493719111500, 370020687316740384989600, 373240410858478301317500, 382830863102532140227000, 383640701361923931899240,
  384680366902020427408140, 387540409028699557356750, 389140569292216068491500, 389570785170044460127200, 390300569292216068491500]

def emitB14_0 : List Nat := [
  362290000000000000000000]

def emitB15_0 : List Nat := [
  199680304220311046530600, 199691008768928513572000, 199710610489720881936650, 199750555329928120867600, 199761078083646569566600,
  199770534857112663789000, 199780780191131045805500, 199790832410069287436200, 199810296630221521196900, 199820592880620177604800,
  199850980000721268393900, 199870764534224976651500, 199900776857489019046400, 199941187944875436377500, 199951078083646569566600,
  199960613965584218454100, 199970939454210457577500, 199990883492631664035200, 200020883492631664035200, 200040704316684741229700,
  200050724471976613413900, 200060792820503578234800, 200070709195701158172900, 200130729448127569320400, 200160653234122364630650,
  200180924039142474851600, 200200768979401233735000, 200250948155348156540400, 200260625182764067313800, 200300540710245986287500,
  200370683602363744452800, 200410660133409513325800, 200430957686366136973000, 200440717896838857135900, 200480730473777586039200,
  200520854724424418857000, 200560736858924784692500, 200610707542770963051800, 200640754871541407744400, 200700809525912044551400,
  200801008768928513572000, 200810666996260152235450, 200831008768928513572000, 200980666996260152235450, 201020728432890422918500,
  201041187944875436377500, 201050660644919580002800, 201070631492834704108100, 201080749742211968989400, 201100878840630100545900,
  201130910686003212399300, 201140821588710823412800, 201160575915133541282500, 201170716094988306868100, 201201027001084192967500,
  201211027001084192967500, 201290798762845625314800, 201300904623541030756000, 201320726432823752251500, 201340835308822974761400,
  201410888371648080978500, 201460800824774345588400, 201540491436840876236850, 201610748499959969133700, 201651008768928513572000,
  201661118630157380383000, 201671078083646569566600, 201700746060814656717800, 201740595787033471995900, 201791027001084192967500,
  201820968222417702755500, 201830807278626459345500, 201840792820503578234800, 201851049315439324388400, 201950862135221634229300,
  201960742510145811026800, 201970586818157995961350, 202020898907699646761000, 202080844546154987863000, 202150757538366115960600,
  202190725447594107950400, 202410763095351231441600, 202470570358148425801400, 202480794762312163945000, 202560780191131045805500,
  202600760278263534772000, 202710968222417702755500, 202780968222417702755500, 202800776857489019046400, 202840716094988306868100,
  202941049315439324388400, 203010968222417702755500, 203020754871541407744400, 203070858361188835944600, 203090681054455214354350,
  203130993353860530846200, 203151078083646569566600, 203160707542770963051800, 203200733615397209377100, 203391187944875436377500,
  203421027001084192967500, 203550798762845625314800, 203580628473737476193600, 203630814177913608040700, 203790668649190347356500,
  203810699664683177740400, 203841027001084192967500, 203910957686366136973000, 204150931449939690223900, 204190948155348156540400,
  204261118630157380383000, 204391008768928513572000, 204450948155348156540400, 204481027001084192967500, 204490660644919580002800,
  204620948155348156540400, 204630819056930024984000, 204891027001084192967500, 204980787211556913130400, 205060847825137270161900,
  205110740211193988556900, 205380819056930024984000, 205420713451662600052500, 205470773631402797224200, 205510851215292437730000,
  205581187944875436377500, 205590917139855326156500, 205700898907699646761000, 205720751000090189675350, 205960957686366136973000,
  205980948155348156540400, 205990672615715986599700, 206211027001084192967500, 206331008768928513572000, 206520878840630100545900,
  206580883492631664035200, 206590780191131045805500, 206610819056930024984000, 206630760278263534772000, 206671049315439324388400,
  206700713451662600052500, 206771008768928513572000, 206931118630157380383000, 207110878840630100545900, 207290757538366115960600,
  207360898907699646761000, 207780794762312163945000, 207990904623541030756000, 208011049315439324388400, 208041078083646569566600,
  208050854724424418857000, 208070729448127569320400, 208080644136944544057900, 208090605936582401141300, 208110814177913608040700,
  208131049315439324388400, 208180904623541030756000, 208200883492631664035200, 208260888371648080978500, 208340776857489019046400,
  208370725447594107950400, 208390705916718875873800, 208400575695594484938900, 208410704316684741229700, 208430757538366115960600,
  208440677350328046319500, 208450728432890422918500, 208490888371648080978500, 208511078083646569566600, 208520591330201524008300,
  208530627732993348407400, 208540773631402797224200, 208551118630157380383000, 208571008768928513572000, 208590733615397209377100,
  208600751000090189675350, 208690705916718875873800, 208770700425143116262400, 208820814177913608040700, 208910835308822974761400,
  208960778510419214167500, 208981118630157380383000, 209000893500977519733500, 209010870139492401583000, 209120748499959969133700,
  209140730473777586039200, 209150726432823752251500, 209190761676887732245960, 209320931449939690223900, 209600924039142474851600,
  209610847825137270161900, 209640824186259463739000, 209731008768928513572000, 209750968222417702755500, 209770968222417702755500,
  209820729448127569320400, 209860513774805971172100, 209870968222417702755500, 209911187944875436377500, 209920693068886398560700,
  209930898907699646761000, 209980635001966685235200, 209990824186259463739000, 210090814177913608040700, 210101078083646569566600,
  210150841371285156404800, 210180749742211968989400, 210191008768928513572000, 210210781900574381735600, 210241049315439324388400,
  210280829592981590766600, 210290640298520243226400, 210320910686003212399300, 210330883492631664035200, 210341049315439324388400,
  210350640298520243226400, 210380749742211968989400, 210510679804438937931200, 210660931449939690223900, 210690517014441410547700,
  210730807278626459345500, 210761187944875436377500, 210781187944875436377500, 210830749742211968989400, 210841187944875436377500,
  210981008768928513572000, 211061187944875436377500, 211091008768928513572000, 211231078083646569566600, 211280794762312163945000,
  211330807278626459345500, 211470664834013750918800, 211491118630157380383000, 211510660644919580002800, 211520841371285156404800,
  211551187944875436377500, 211600744863195552046200, 211610862135221634229300, 211630851215292437730000, 211690794762312163945000,
  211710768979401233735000, 211830633037266946855500, 211870754871541407744400, 211910851215292437730000, 211930858361188835944600,
  212050744863195552046200, 212130883492631664035200, 212140768979401233735000, 212180633037266946855500, 212200854724424418857000,
  212370794762312163945000, 212401118630157380383000, 212460838294119289729500, 212470980000721268393900, 212530826853084171955100,
  212700689584213265543900, 212711027001084192967500, 212800980000721268393900, 212811118630157380383000, 212900783639748652922500,
  212951049315439324388400, 213050819056930024984000, 213130633427130988421300, 213150471009873769317500, 213220585117023413307700,
  213260883492631664035200, 213270993353860530846200, 213290910686003212399300, 213310730473777586039200, 213320993353860530846200,
  213330752273992767418300, 213340785409706362862600, 213350724471976613413900, 213380705916718875873800, 213510829592981590766600,
  213591008768928513572000, 213610670896475932562400, 213631008768928513572000, 213640957686366136973000, 213670662717532631714500,
  213681027001084192967500, 213710957686366136973000, 213750968222417702755500, 213820730473777586039200, 213850924039142474851600,
  213871027001084192967500, 214020772056567100410350, 214070726432823752251500, 214260924039142474851600, 214350957686366136973000,
  214420780191131045805500, 214430780191131045805500, 214501078083646569566600, 214520854724424418857000, 214530660133409513325800,
  214570704316684741229700, 214620641986324021961600, 214630773631402797224200, 214640669766520407169000, 214721078083646569566600,
  214741078083646569566600, 214750664834013750918800, 214760688901616758503900, 214780720661991990186900, 214820695946782853565000,
  214830832410069287436200, 214841049315439324388400, 214870633818520920534900, 214890832410069287436200, 214900760278263534772000,
  214940948155348156540400, 214960785409706362862600, 214970778510419214167500, 215070760278263534772000, 215080615586365241139400,
  215120702741849044415800, 215130809525912044551400, 215140858361188835944600, 215160576135155632242800, 215170531841808846720300,
  215180600733096488835900, 215200993353860530846200, 215211187944875436377500, 215310993353860530846200, 215340684249615195014550,
  215351027001084192967500, 215420874395453843462500, 215470707542770963051800, 215480713451662600052500, 215550968222417702755500,
  215560968222417702755500, 215610811824863867021300, 215740816587668765946800, 215780917139855326156500, 215890854724424418857000,
  216080785409706362862600, 216171008768928513572000, 216190980000721268393900, 216280690271501194320100, 216291187944875436377500,
  216360726432823752251500, 216440654672996109840600, 216460888371648080978500, 216750931449939690223900, 216760643271138269746500,
  216831118630157380383000, 216951078083646569566600, 216960824186259463739000, 216970931449939690223900, 217000783639748652922500,
  217090957686366136973000, 217130796742574893562900, 217190866057292949557400, 217410737963908403351000, 217670844546154987863000,
  217690757538366115960600, 218070838294119289729500, 218091118630157380383000, 218220816587668765946800, 218390742510145811026800,
  218540796742574893562900, 218630910686003212399300, 218840878840630100545900, 218910767475613497280900, 218920722548840420625200,
  218981078083646569566600, 218990832410069287436200, 219160578137447219753500, 219270910686003212399300, 219300709195701158172900,
  219320854724424418857000, 219340752273992767418300, 219430917139855326156500, 219801187944875436377500, 219831078083646569566600,
  219880858361188835944600, 220070883492631664035200, 220220778510419214167500, 220360854724424418857000, 220380910686003212399300,
  220391118630157380383000, 220400924039142474851600, 220570866057292949557400, 220681118630157380383000, 220750957686366136973000,
  220990924039142474851600, 221160888371648080978500, 221200968222417702755500, 221241118630157380383000, 221320917139855326156500,
  221960724471976613413900, 222180931449939690223900, 222350561224820582241300, 222380679185241913139100, 222400602437683216134800,
  222420821588710823412800, 222440866057292949557400, 222511027001084192967500, 222560957686366136973000, 222600874395453843462500]

def emitB15_1 : List Nat := [
  222660824186259463739000, 222690655643877522536660, 222700904623541030756000, 222830655643877522536660, 222850874395453843462500,
  222940904623541030756000, 222960821588710823412800, 223030735766017731473450, 223120638228052907057300, 223200720661991990186900,
  223520627732993348407400, 223620612054698048649500, 223740866057292949557400, 224020669206294852302000, 224750931449939690223900,
  224780931449939690223900, 225190790915684081165350, 225300731510056289593900, 225330612054698048649500, 225340752273992767418300,
  225770805080735787468000, 226150931449939690223900, 226181118630157380383000, 226220980000721268393900, 226351118630157380383000,
  226450720661991990186900, 226810931449939690223900, 226960898907699646761000, 227211187944875436377500, 227391027001084192967500,
  227631187944875436377500, 227660854724424418857000, 227670854724424418857000, 227680615260100677657800, 227810851215292437730000,
  227880819056930024984000, 227911008768928513572000, 228051187944875436377500, 228060948155348156540400, 228091027001084192967500,
  228100679185241913139100, 228120743679749787345800, 228180767475613497280900, 228230382970246341158350, 228250481468972657197400,
  228260794762312163945000, 228270957686366136973000, 228330703526166790518400, 228360610800763123375900, 228400802930115265371700,
  228410980000721268393900, 228420776857489019046400, 228460980000721268393900, 228520749742211968989400, 228550666996260152235450,
  228570924039142474851600, 228590742510145811026800, 228680841371285156404800, 228711118630157380383000, 228850980000721268393900,
  228870980000721268393900, 228900776857489019046400, 228940742510145811026800, 228990878840630100545900, 229000910686003212399300,
  229080888371648080978500, 229090657118105696257000, 229140493055153205046300, 229160888371648080978500, 229190826853084171955100,
  229301078083646569566600, 229340847825137270161900, 229370794762312163945000, 229531008768928513572000, 229710883492631664035200,
  229870710876412989811100, 229890835308822974761400, 229930917139855326156500, 229960858361188835944600, 229990835308822974761400,
  230041187944875436377500, 230330888371648080978500, 230410747272950709952200, 230470854724424418857000, 230590924039142474851600,
  231040893500977519733500, 231100811824863867021300, 231420826853084171955100, 232330816587668765946800, 232410874395453843462500,
  232441008768928513572000, 232670821588710823412800, 232851008768928513572000, 233050847825137270161900, 233080854724424418857000,
  233760841371285156404800, 233770917139855326156500, 233801078083646569566600, 233830740211193988556900, 233841187944875436377500,
  233880904623541030756000, 233890910686003212399300, 233911187944875436377500, 233951078083646569566600, 233960626632064797570450,
  233980807278626459345500, 234160807278626459345500, 234181187944875436377500, 234211187944875436377500, 234250761676887732245960,
  234320758898931321538400, 234330615586365241139400, 234360756196064082746500, 234480794762312163945000, 234531049315439324388400,
  234540645891375509148900, 234560931449939690223900, 234570805080735787468000, 234750893500977519733500, 234770898907699646761000,
  234780618908930003971500, 234810802930115265371700, 234850800824774345588400, 234861027001084192967500, 234920847825137270161900,
  234930957686366136973000, 234941027001084192967500, 235000686881346026751950, 235061118630157380383000, 235070993353860530846200,
  235171118630157380383000, 235190798762845625314800, 235210798762845625314800, 235221118630157380383000, 235250730473777586039200,
  235260645891375509148900, 235270761676887732245960, 235290805080735787468000, 235320800824774345588400, 235410931449939690223900,
  235421049315439324388400, 235440744863195552046200, 235450763095351231441600, 235470789046470779950050, 235510851215292437730000,
  235530870139492401583000, 235580675548477496051600, 235590675548477496051600, 235600764534224976651500, 235620968222417702755500,
  235630789046470779950050, 235650763095351231441600, 235670535588644821426300, 235690787211556913130400, 235720866057292949557400,
  235740948155348156540400, 235760720661991990186900, 235780888371648080978500, 235811118630157380383000, 236010780191131045805500,
  236080835308822974761400, 236101049315439324388400, 236130633818520920534900, 236140917139855326156500, 236160858361188835944600,
  236170883492631664035200, 236180679185241913139100, 236210687550244841831600, 236240767475613497280900, 236290835308822974761400,
  236310980000721268393900, 236490709195701158172900, 236500709195701158172900, 236520679185241913139100, 236531049315439324388400,
  236650664300679153382600, 236810968222417702755500, 236820773631402797224200, 236920768979401233735000, 237211049315439324388400,
  237430980000721268393900, 237811049315439324388400, 237841008768928513572000, 237920829592981590766600, 238150758898931321538400,
  238220898907699646761000, 238421049315439324388400, 238441187944875436377500, 238530798762845625314800, 239400798762845625314800,
  240110980000721268393900, 240130948155348156540400, 240290811824863867021300, 240370910686003212399300, 240380631492834704108100,
  240390735766017731473450, 240400888371648080978500, 240431118630157380383000, 240460809525912044551400, 240491008768928513572000,
  240620866057292949557400, 240660931449939690223900, 240671187944875436377500, 240720924039142474851600, 240760968222417702755500,
  240930866057292949557400, 241070924039142474851600, 241090781900574381735600, 241201118630157380383000, 241330866057292949557400,
  241491118630157380383000, 241780800824774345588400, 241790573956420213752000, 241800741354063570919100, 241820792820503578234800,
  241840731510056289593900, 241850800824774345588400, 241881187944875436377500, 241900924039142474851600, 241910917139855326156500,
  242080993353860530846200, 242120633037266946855500, 242141078083646569566600, 242220763095351231441600, 242230893500977519733500,
  242300854724424418857000, 242310888371648080978500, 242470893500977519733500, 242480948155348156540400, 242651049315439324388400,
  242900893500977519733500, 242910917139855326156500, 243000993353860530846200, 243100832410069287436200, 243140805080735787468000,
  243200632648916944215800, 243220618908930003971500, 243230862135221634229300, 243240726432823752251500, 243410575915133541282500,
  243520681054455214354350, 243570854724424418857000, 243580841371285156404800, 243690832410069287436200, 243730681054455214354350,
  243750710876412989811100, 243770742510145811026800, 243780710876412989811100, 243920742510145811026800, 243960854724424418857000,
  244020682320294901546700, 244030586085553986754100, 244180656132876051955900, 244251187944875436377500, 244260888371648080978500,
  244280816587668765946800, 244330796742574893562900, 244430802930115265371700, 244440910686003212399300, 244530796742574893562900,
  244550874395453843462500, 244600600733096488835900, 244660765994104918766800, 244710604756627708025800, 244780595787033471995900,
  244811187944875436377500, 244900717896838857135900, 244940619586898702509400, 245030741354063570919100, 245050802930115265371700,
  245150437066158372949900, 245170734684926121052000, 245250662195338233599350, 245280729448127569320400, 245350712585856325741050,
  245360726432823752251500, 245370883492631664035200, 245440679185241913139100, 245510659118172366924000, 245550807278626459345500,
  245650695946782853565000, 245681078083646569566600, 245731187944875436377500, 245750980000721268393900, 245760841371285156404800,
  245810898907699646761000, 245910993353860530846200, 245940643703104384198200, 246011049315439324388400, 246040874395453843462500,
  246050732557186276323400, 246090904623541030756000, 246130625543124817643650, 246151078083646569566600, 246160768979401233735000,
  246180883492631664035200, 246291078083646569566600, 246430910686003212399300, 246461187944875436377500, 246510805080735787468000,
  246530678569855355701300, 246581187944875436377500, 246751008768928513572000, 246771187944875436377500, 246800794762312163945000,
  246810862135221634229300, 246840917139855326156500, 246851027001084192967500, 246870690271501194320100, 246880716094988306868100,
  246940705113501706147400, 246990789046470779950050, 247000807278626459345500, 247171187944875436377500, 247240783639748652922500,
  247360870139492401583000, 247390764534224976651500, 247480677350328046319500, 247540724471976613413900, 247570898907699646761000,
  247580794762312163945000, 247730612370654077686300, 247780544811767243029600, 247851187944875436377500, 247921049315439324388400,
  247961008768928513572000, 247990792820503578234800, 248001027001084192967500, 248010705113501706147400, 248080717896838857135900,
  248090968222417702755500, 248170807278626459345500, 248190682959274711423800, 248200790915684081165350, 248220742510145811026800,
  248250802930115265371700, 248260910686003212399300, 248270789046470779950050, 248330710876412989811100, 248470612687611553814200,
  248580829592981590766600, 248590733615397209377100, 248630670896475932562400, 248680739081238463163500, 248951118630157380383000,
  249040957686366136973000, 249080821588710823412800, 249101118630157380383000, 249200717896838857135900, 249300789046470779950050,
  249361078083646569566600, 249510670329902178994600, 249620659118172366924000, 249760874395453843462500, 249771008768928513572000,
  249960739081238463163500, 250330633037266946855500, 250740968222417702755500, 250790841371285156404800, 250800677350328046319500,
  250880805080735787468000, 251020838294119289729500, 251040572459066034735700, 251050838294119289729500, 251060807278626459345500,
  251120668095172309795000, 251150767475613497280900, 251300652286247969176300, 251340924039142474851600, 251360668095172309795000,
  251400904623541030756000, 251421187944875436377500, 251431187944875436377500, 251520609255137299706700, 251591078083646569566600,
  251630597136581619484500, 251650778510419214167500, 251661118630157380383000, 251690752273992767418300, 251710640717808069230100,
  251870893500977519733500, 251910790915684081165350, 251940917139855326156500, 251950993353860530846200, 251960689584213265543900,
  251970957686366136973000, 252060746060814656717800, 252091187944875436377500, 252150790915684081165350, 252261187944875436377500,
  252330819056930024984000, 252350841371285156404800, 252370693068886398560700, 252380798762845625314800, 252400980000721268393900,
  252420910686003212399300, 252430783639748652922500, 252530805080735787468000, 252590700425143116262400, 252650740211193988556900]

def emitB15_2 : List Nat := [
  252771078083646569566600, 252820835308822974761400, 252850816587668765946800, 252880888371648080978500, 252890993353860530846200,
  252910783639748652922500, 252930737963908403351000, 252960838294119289729500, 252980898907699646761000, 253000764534224976651500,
  253020866057292949557400, 253070693068886398560700, 253170862135221634229300, 253200787211556913130400, 253210917139855326156500,
  253250754871541407744400, 253310811824863867021300, 253400980000721268393900, 253420904623541030756000, 253430993353860530846200,
  253450826853084171955100, 253461187944875436377500, 253510661675856545888900, 253530610179643114111900, 253610821588710823412800,
  253660824186259463739000, 253750993353860530846200, 253771118630157380383000, 253800841371285156404800, 253810781900574381735600,
  253840811824863867021300, 253910730473777586039200, 254020753564333251009100, 254060993353860530846200, 254170740211193988556900,
  254231187944875436377500, 254290792820503578234800, 254390758898931321538400, 254510917139855326156500, 254540752273992767418300,
  254620816587668765946800, 254630838294119289729500, 254721187944875436377500, 254741187944875436377500, 254750993353860530846200,
  254800939454210457577500, 254810742510145811026800, 254840993353860530846200, 254860939454210457577500, 254881027001084192967500,
  254900763095351231441600, 254991187944875436377500, 255041118630157380383000, 255060800824774345588400, 255090654191067466245700,
  255120654191067466245700, 255130807278626459345500, 255140676145494194702000, 255270924039142474851600, 255501118630157380383000,
  255511118630157380383000, 255520714325030596927900, 255540832410069287436200, 255620689584213265543900, 255681027001084192967500,
  255690931449939690223900, 255781118630157380383000, 255810838294119289729500, 255820781900574381735600, 256130758898931321538400,
  256191187944875436377500, 256201008768928513572000, 256220612054698048649500, 256280917139855326156500, 256441008768928513572000,
  256581078083646569566600, 256611118630157380383000, 256681118630157380383000, 256710612054698048649500, 257030874395453843462500,
  257050758898931321538400, 257201027001084192967500, 257460993353860530846200, 257650787211556913130400, 257710910686003212399300,
  257780752273992767418300, 257880980000721268393900, 257930862135221634229300, 257941078083646569566600, 257970980000721268393900,
  257990917139855326156500, 258020968222417702755500, 258031118630157380383000, 258050814177913608040700, 258100957686366136973000,
  258120816587668765946800, 258180752273992767418300, 258240841371285156404800, 258261187944875436377500, 258301187944875436377500,
  258420924039142474851600, 258560931449939690223900, 258841078083646569566600, 258851118630157380383000, 259030787211556913130400,
  259100694497482123308350, 259130676145494194702000, 259150765994104918766800, 259180743679749787345800, 259191118630157380383000,
  259250783639748652922500, 259321118630157380383000, 259370741354063570919100, 259430847825137270161900, 259451049315439324388400,
  259470968222417702755500, 259491118630157380383000, 259540785409706362862600, 259550893500977519733500, 259640805080735787468000,
  259680748499959969133700, 259700757538366115960600, 259720824186259463739000, 259731118630157380383000, 259750904623541030756000,
  259760748499959969133700, 259860968222417702755500, 259910693780633175447100, 260011118630157380383000, 260070814177913608040700,
  260090904623541030756000, 260121118630157380383000, 260200851215292437730000, 260250674365031731351300, 260280674365031731351300,
  260290628102679536540000, 260310993353860530846200, 260320634605926563625500, 260390628102679536540000, 260410740211193988556900,
  260440878840630100545900, 260451187944875436377500, 260490727427856837568400, 260591187944875436377500, 260601187944875436377500,
  260710735766017731473450, 260800378110990817471800, 260820737963908403351000, 260850604756627708025800, 260870870139492401583000,
  260890844546154987863000, 260931118630157380383000, 261020705113501706147400, 261030798762845625314800, 261140917139855326156500,
  261260612370654077686300, 261270811824863867021300, 261310841371285156404800, 261370751000090189675350, 261430685556823351749860,
  261490733615397209377100, 261570993353860530846200, 261590832410069287436200, 261720980000721268393900, 261740634211448734523800,
  261780705113501706147400, 261851187944875436377500, 261871187944875436377500, 261950826853084171955100, 261970858361188835944600,
  262050980000721268393900, 262161118630157380383000, 262220796742574893562900, 262280841371285156404800, 262300862135221634229300,
  262340878840630100545900, 262480858361188835944600, 262630760278263534772000, 262740770506148446813800, 262791078083646569566600,
  262860980000721268393900, 262920710876412989811100, 263110751000090189675350, 263130826853084171955100, 263261078083646569566600,
  263360798762845625314800, 263540826853084171955100, 263560686216891754885100, 263600809525912044551400, 263611049315439324388400,
  263660854724424418857000, 263670768979401233735000, 263760796742574893562900, 263770479690018500847500, 263790968222417702755500,
  263811187944875436377500, 263910957686366136973000, 263950644136944544057900, 263970690271501194320100, 263990939454210457577500,
  264080773631402797224200, 264100684249615195014550, 264120732557186276323400, 264171049315439324388400, 264200811824863867021300,
  264260832410069287436200, 264291118630157380383000, 264320623400185672053700, 264340748499959969133700, 264350758898931321538400,
  264461078083646569566600, 264601118630157380383000, 264620870139492401583000, 264630674955003944070150, 264650957686366136973000,
  264690628473737476193600, 264790772056567100410350, 264810613965584218454100, 264830835308822974761400, 264950898907699646761000,
  264970866057292949557400, 265050993353860530846200, 265170948155348156540400, 265240743679749787345800, 265250824186259463739000,
  265380862135221634229300, 265410948155348156540400, 265430883492631664035200, 265801049315439324388400, 266110832410069287436200,
  266120878840630100545900, 266310844546154987863000, 266331118630157380383000, 266350939454210457577500, 266410814177913608040700,
  266471118630157380383000, 266650727427856837568400, 266661027001084192967500, 266810739081238463163500, 266840742510145811026800,
  266880847825137270161900, 266901187944875436377500, 266910893500977519733500, 266961187944875436377500, 267531118630157380383000,
  267810957686366136973000, 267830948155348156540400, 267900767475613497280900, 267921049315439324388400, 268030924039142474851600,
  268200862135221634229300, 268270931449939690223900, 268341187944875436377500, 268470939454210457577500, 268621187944875436377500,
  268650854724424418857000, 269700785409706362862600, 269891187944875436377500, 269970866057292949557400, 270101008768928513572000,
  270140993353860530846200, 270361118630157380383000, 270540751000090189675350, 270731118630157380383000, 270850862135221634229300,
  271380730473777586039200, 271610844546154987863000, 271690798762845625314800, 271780650881072623611300, 271920811824863867021300,
  271930814177913608040700, 272310832410069287436200, 272430650881072623611300, 273551118630157380383000, 274020758898931321538400,
  274241187944875436377500, 274260698909962614202100, 274270758898931321538400, 274311118630157380383000, 274420735766017731473450,
  274500772056567100410350, 274530711727481956601900, 274590980000721268393900, 274680763095351231441600, 274721118630157380383000,
  274890698909962614202100, 274901049315439324388400, 274910659118172366924000, 274920598504592009892460, 274930768979401233735000,
  274980847825137270161900, 275060968222417702755500, 275110730473777586039200, 275120682320294901546700, 275150558602947551729400,
  275231078083646569566600, 275300858361188835944600, 275310765994104918766800, 275440765994104918766800, 275460910686003212399300,
  275630910686003212399300, 275750980000721268393900, 275780623400185672053700, 275840805080735787468000, 275850805080735787468000,
  275890898907699646761000, 275950874395453843462500, 275970948155348156540400, 275990809525912044551400, 276021008768928513572000,
  276040713451662600052500, 276050733615397209377100, 276110710876412989811100, 276270870139492401583000, 276650709195701158172900,
  276680559531459329297300, 276830559531459329297300, 277000568504336325910300, 277040866057292949557400, 277140752273992767418300,
  277191049315439324388400, 277350725447594107950400, 277430796742574893562900, 277450939454210457577500, 277540809525912044551400,
  277621118630157380383000, 277690862135221634229300, 277700726432823752251500, 277770870139492401583000, 277790904623541030756000,
  277820898907699646761000, 277840754871541407744400, 277850754871541407744400, 277921008768928513572000, 277940661675856545888900,
  278011118630157380383000, 278090661675856545888900, 278150792820503578234800, 278271008768928513572000, 278320694497482123308350,
  278330721600966025170800, 278350851215292437730000, 278370870139492401583000, 278380798762845625314800, 278440980000721268393900,
  278610980000721268393900, 278670847825137270161900, 278740802930115265371700, 278750752273992767418300, 278770888371648080978500,
  278820776857489019046400, 278880826853084171955100, 278890980000721268393900, 279001078083646569566600, 279020931449939690223900,
  279050870139492401583000, 279150783639748652922500, 279270826853084171955100, 279311118630157380383000, 279340798762845625314800,
  279410705113501706147400, 279450980000721268393900, 279460816587668765946800, 279580862135221634229300, 279630829592981590766600,
  279690695946782853565000, 279731027001084192967500, 279820948155348156540400, 279850775231436931868300, 279870844546154987863000,
  280090718810087213463200, 280100866057292949557400, 280140866057292949557400, 280200844546154987863000, 280230711727481956601900,
  280340931449939690223900, 280390931449939690223900, 280411118630157380383000, 280461187944875436377500, 280511118630157380383000,
  280531187944875436377500, 280671187944875436377500, 280881078083646569566600, 281070735766017731473450, 281140931449939690223900,
  281220776857489019046400, 281290904623541030756000, 281450549932621746401000, 281491187944875436377500, 281510694497482123308350,
  281541027001084192967500, 281550821588710823412800, 281650651347273934192400, 281701187944875436377500, 281760917139855326156500,
  281800898907699646761000, 281851187944875436377500, 282010716991855305144100, 282160732557186276323400, 282180924039142474851600]

def emitB15_3 : List Nat := [
  282220775231436931868300, 282460814177913608040700, 282700968222417702755500, 282910824186259463739000, 283040623047451620256900,
  283121187944875436377500, 283160862135221634229300, 283310716991855305144100, 283560792820503578234800, 283570764534224976651500,
  283691187944875436377500, 283720740211193988556900, 283780904623541030756000, 283850627732993348407400, 283890957686366136973000,
  284040841371285156404800, 284140904623541030756000, 284150627732993348407400, 284170898907699646761000, 284180968222417702755500,
  284220878840630100545900, 284310910686003212399300, 284480841371285156404800, 284590672039345514924600, 284720917139855326156500,
  284871187944875436377500, 284971078083646569566600, 285000870139492401583000, 285070826853084171955100, 285080826853084171955100,
  285280824186259463739000, 285360870139492401583000, 285381027001084192967500, 286080948155348156540400, 286110844546154987863000,
  286390948155348156540400, 286510957686366136973000, 287031187944875436377500, 287790666996260152235450, 287810764534224976651500,
  287830826853084171955100, 287840744863195552046200, 287890708365820876703400, 287990931449939690223900, 288090851215292437730000,
  288250787211556913130400, 288460904623541030756000, 288470816587668765946800, 288570854724424418857000, 288580625182764067313800,
  288601049315439324388400, 288660939454210457577500, 288721078083646569566600, 288790717896838857135900, 288881187944875436377500,
  288950728432890422918500, 289090665909292928545100, 289251187944875436377500, 289370924039142474851600, 289490770506148446813800,
  289540841371285156404800, 289610378110990817471800, 289660739081238463163500, 290011049315439324388400, 290170728432890422918500,
  290220819056930024984000, 290290770506148446813800, 290310917139855326156500, 290660968222417702755500, 290810749742211968989400,
  290870870139492401583000, 290880870139492401583000, 291050665909292928545100, 291230792820503578234800, 291280826853084171955100,
  291411049315439324388400, 291510980000721268393900, 291580931449939690223900, 292000851215292437730000, 292110939454210457577500,
  292290660644919580002800, 292330733615397209377100, 292381187944875436377500, 292451078083646569566600, 292460866057292949557400,
  292540931449939690223900, 292550816587668765946800, 292731187944875436377500, 292750714325030596927900, 292820931449939690223900,
  292890708365820876703400, 293010768979401233735000, 293050824186259463739000, 293090768979401233735000, 293121118630157380383000,
  293131078083646569566600, 293560787211556913130400, 293590883492631664035200, 293690733615397209377100, 293780757538366115960600,
  293920776857489019046400, 293990757538366115960600, 294090968222417702755500, 294200534420748335011600, 294210888371648080978500,
  294330888371648080978500, 294360694497482123308350, 294690734684926121052000, 294831118630157380383000, 294921187944875436377500,
  294940733615397209377100, 295201008768928513572000, 295440534420748335011600, 295721027001084192967500, 295751078083646569566600,
  295770780191131045805500, 295790948155348156540400, 296090752273992767418300, 296160844546154987863000, 296180835308822974761400,
  296421187944875436377500, 296450816587668765946800, 296640835308822974761400, 296771008768928513572000, 296940844546154987863000,
  297010948155348156540400, 297020601015184123000100, 297381027001084192967500, 297470789046470779950050, 297480898907699646761000,
  297560931449939690223900, 297811027001084192967500, 297961049315439324388400, 298070948155348156540400, 298141049315439324388400,
  298980931449939690223900, 299160866057292949557400, 299220878840630100545900, 299261187944875436377500, 299340917139855326156500,
  299730917139855326156500, 299760844546154987863000, 299780826853084171955100, 299800847825137270161900, 299830560468673312183600,
  299920725447594107950400, 300010917139855326156500, 300050980000721268393900, 300070693068886398560700, 300110789046470779950050,
  300210770506148446813800, 300310811824863867021300, 300410883492631664035200, 300500733615397209377100, 300530792820503578234800,
  300590789046470779950050, 300640618908930003971500, 300700586085553986754100, 300721118630157380383000, 300901078083646569566600,
  300950910686003212399300, 300970814177913608040700, 301260968222417702755500, 301300800824774345588400, 301420844546154987863000,
  301490841371285156404800, 301710666996260152235450, 301921027001084192967500, 301960814177913608040700, 302410968222417702755500,
  303070993353860530846200, 303160993353860530846200, 303310811824863867021300, 303320704316684741229700, 303330649955140082331500,
  303340549932621746401000, 303420819056930024984000, 303430910686003212399300, 303550968222417702755500, 303820789046470779950050,
  304101118630157380383000, 304171027001084192967500, 304220948155348156540400, 304231118630157380383000, 304240854724424418857000,
  304270730473777586039200, 304281118630157380383000, 304330633818520920534900, 304351027001084192967500, 304360854724424418857000,
  304420758898931321538400, 304460566084863467204600, 304500993353860530846200, 304520644136944544057900, 304560554794690447008400,
  304650858361188835944600, 304730658113138781573900, 304750917139855326156500, 304950668095172309795000, 304961187944875436377500,
  305240703526166790518400, 305260570358148425801400, 305540993353860530846200, 305610939454210457577500, 305651118630157380383000,
  305850948155348156540400, 306100835308822974761400, 306220835308822974761400, 306240917139855326156500, 306360794762312163945000,
  306510829592981590766600, 306900821588710823412800, 306930690963545478777400, 306990824186259463739000, 307010798762845625314800,
  307030824186259463739000, 307070796742574893562900, 307331049315439324388400, 307571187944875436377500, 307720640298520243226400,
  307760931449939690223900, 308050883492631664035200, 308600898907699646761000, 308610874395453843462500, 308620888371648080978500,
  308890883492631664035200, 309221187944875436377500, 309520917139855326156500, 310010874395453843462500, 310360761676887732245960,
  310620862135221634229300, 310700584636253256497350, 310960773631402797224200, 311170773631402797224200, 311190898907699646761000,
  311421187944875436377500, 311500761676887732245960, 311630744863195552046200, 311680939454210457577500, 311690993353860530846200,
  311770948155348156540400, 311790731510056289593900, 311810858361188835944600, 311851078083646569566600, 311920904623541030756000,
  312031078083646569566600, 312061049315439324388400, 312090862135221634229300, 312150764534224976651500, 312160814177913608040700,
  312270844546154987863000, 312320811824863867021300, 312431187944875436377500, 312450824186259463739000, 312551118630157380383000,
  312640993353860530846200, 312780858361188835944600, 312810814177913608040700, 312830800824774345588400, 313090764534224976651500,
  313370800824774345588400, 313481118630157380383000, 313510664300679153382600, 313540673778519786111600, 313590888371648080978500,
  313610597955140078128360, 313630783639748652922500, 313680957686366136973000, 313830931449939690223900, 313971118630157380383000,
  314060664300679153382600, 314181118630157380383000, 314340783639748652922500, 314350677350328046319500, 314611008768928513572000,
  314690744863195552046200, 315050727427856837568400, 315081027001084192967500, 315281027001084192967500, 315480835308822974761400,
  315581027001084192967500, 315610733615397209377100, 315630835308822974761400, 315781078083646569566600, 316391078083646569566600,
  316490968222417702755500, 316580993353860530846200, 316610844546154987863000, 316800796742574893562900, 317091187944875436377500,
  317311078083646569566600, 317740993353860530846200, 318400835308822974761400, 318591049315439324388400, 318810688901616758503900,
  318950775231436931868300, 319091187944875436377500, 319181078083646569566600, 319340570983802187231950, 319460917139855326156500,
  319670968222417702755500, 319751078083646569566600, 320040754871541407744400, 320050800824774345588400, 320061187944875436377500,
  320080931449939690223900, 320110760278263534772000, 320201118630157380383000, 320250841371285156404800, 320270763095351231441600,
  320320805080735787468000, 320340931449939690223900, 320390723505785522240250, 320480789046470779950050, 320661049315439324388400,
  320800821588710823412800, 320850767475613497280900, 320940844546154987863000, 320970715206093565143400, 320980809525912044551400,
  321130792820503578234800, 321140939454210457577500, 321470693068886398560700, 321600851215292437730000, 321730968222417702755500,
  321771008768928513572000, 321780883492631664035200, 321840980000721268393900, 321890796742574893562900, 321910904623541030756000,
  322020723505785522240250, 322271049315439324388400, 322330775231436931868300, 323020862135221634229300, 323050694497482123308350,
  323210754871541407744400, 323530980000721268393900, 323610824186259463739000, 323620809525912044551400, 323800924039142474851600,
  323990980000721268393900, 324060948155348156540400, 324171187944875436377500, 324180800824774345588400, 324200948155348156540400,
  324220754871541407744400, 324240931449939690223900, 324311118630157380383000, 324341008768928513572000, 324370694497482123308350,
  324380980000721268393900, 324390763095351231441600, 324400841371285156404800, 324410760278263534772000, 324540789046470779950050,
  324561049315439324388400, 324630693068886398560700, 324670821588710823412800, 324720809525912044551400, 324740809525912044551400,
  324760715206093565143400, 324770767475613497280900, 324780844546154987863000, 324790792820503578234800, 324830980000721268393900,
  324870924039142474851600, 324960796742574893562900, 324990824186259463739000, 325000968222417702755500, 325010904623541030756000,
  325110851215292437730000, 325310775231436931868300, 325361049315439324388400, 325440980000721268393900, 325530862135221634229300,
  325700802930115265371700, 325800993353860530846200, 325930883492631664035200, 325960968222417702755500, 326100854724424418857000,
  326180655157258557419400, 326220653234122364630650, 326310854724424418857000, 326500870139492401583000, 326540773631402797224200,
  326701078083646569566600, 326760785409706362862600, 326810660133409513325800, 327010924039142474851600, 327220754871541407744400,
  327280874395453843462500, 327450862135221634229300, 327610874395453843462500, 327630631110425060267800, 327680792820503578234800,
  327690637006041773579800, 327721027001084192967500, 327800939454210457577500, 327840746060814656717800, 328190673778519786111600]

def emitB15_4 : List Nat := [
  328240798762845625314800, 328271187944875436377500, 328310776857489019046400, 328420917139855326156500, 328580768979401233735000,
  328620694497482123308350, 328740742510145811026800, 328800742510145811026800, 328820615260100677657800, 328830798762845625314800,
  328930713451662600052500, 328990811824863867021300, 329010811824863867021300, 329020718810087213463200, 329200948155348156540400,
  329250720661991990186900, 329290939454210457577500, 329331187944875436377500, 329371118630157380383000, 329540844546154987863000,
  329611118630157380383000, 329660665909292928545100, 329720684249615195014550, 329740948155348156540400, 329880883492631664035200,
  329930580410272327509100, 330141049315439324388400, 330160686216891754885100, 330201078083646569566600, 330210732557186276323400,
  330291118630157380383000, 330370773631402797224200, 330410993353860530846200, 330500744863195552046200, 330670620956783138325500,
  330730620956783138325500, 330800993353860530846200, 331251008768928513572000, 331260993353860530846200, 331360910686003212399300,
  331390744863195552046200, 331450780191131045805500, 331500841371285156404800, 331671078083646569566600, 331760939454210457577500,
  331841049315439324388400, 332130665909292928545100, 332140773631402797224200, 332250993353860530846200, 332530829592981590766600,
  332560768979401233735000, 332580453861320024050000, 332610811824863867021300, 332670698909962614202100, 332860888371648080978500,
  332870592880620177604800, 332880591330201524008300, 332890540710245986287500, 332900870139492401583000, 332921049315439324388400,
  332930780191131045805500, 332961118630157380383000, 333100980000721268393900, 333910749742211968989400, 333920681685372133680800,
  333930681685372133680800, 333940785409706362862600, 334021078083646569566600, 334100796742574893562900, 334261027001084192967500,
  334331187944875436377500, 334570645891375509148900, 334640898907699646761000, 334851118630157380383000, 334951187944875436377500,
  334990835308822974761400, 335030756196064082746500, 335090637819054381904850, 335100682959274711423800, 335210792820503578234800,
  335410904623541030756000, 335791008768928513572000, 335861008768928513572000, 335900898907699646761000, 335930924039142474851600,
  336061187944875436377500, 336090787211556913130400, 336101187944875436377500, 336180753564333251009100, 336330758898931321538400,
  336350751000090189675350, 336470993353860530846200, 336550883492631664035200, 337070569118463128118500, 337151187944875436377500,
  337220968222417702755500, 337750883492631664035200, 338050924039142474851600, 338060824186259463739000, 338290980000721268393900,
  338311049315439324388400, 338360555329928120867600, 338530679185241913139100, 338650948155348156540400, 338790829592981590766600,
  339000968222417702755500, 339401187944875436377500, 339450741354063570919100, 339760835308822974761400, 339801118630157380383000,
  339950948155348156540400, 340280809525912044551400, 340740893500977519733500, 341571049315439324388400, 342550826853084171955100,
  342610898907699646761000, 342691078083646569566600, 342770993353860530846200, 343820696679386862772350, 343890819056930024984000,
  343940665909292928545100, 343950665909292928545100, 344291008768928513572000, 344300993353860530846200, 344341118630157380383000,
  344451008768928513572000, 344531118630157380383000, 345060847825137270161900, 345230743679749787345800, 345420993353860530846200,
  345550924039142474851600, 345601118630157380383000, 345620785409706362862600, 345810924039142474851600, 345881118630157380383000,
  345931187944875436377500, 346190931449939690223900, 346310993353860530846200, 346620993353860530846200, 347010883492631664035200,
  347071118630157380383000, 347181118630157380383000, 347391078083646569566600, 348141049315439324388400, 348210993353860530846200,
  348471187944875436377500, 348500749742211968989400, 348650847825137270161900, 348701118630157380383000, 348750993353860530846200,
  348800695219506920657100, 348920673195427755032200, 349030821588710823412800, 349090730473777586039200, 349150711727481956601900,
  349171049315439324388400, 349200888371648080978500, 349261008768928513572000, 349490893500977519733500, 349571187944875436377500,
  349660768979401233735000, 349741008768928513572000, 350101118630157380383000, 350130699664683177740400, 350180893500977519733500,
  350361049315439324388400, 350370699664683177740400, 350410789046470779950050, 350650904623541030756000, 350900893500977519733500,
  351241118630157380383000, 351371027001084192967500, 351671049315439324388400, 351721118630157380383000, 351991027001084192967500,
  352010931449939690223900, 352060888371648080978500, 352110606531822253870900, 352151187944875436377500, 352220701963635000210300,
  352420800824774345588400, 352640993353860530846200, 352650606531822253870900, 352660993353860530846200, 352681187944875436377500,
  352700701963635000210300, 352990714325030596927900, 353010917139855326156500, 353020688901616758503900, 353200688901616758503900,
  353280602151559988031600, 353360883492631664035200, 353420713451662600052500, 353470749742211968989400, 353520772056567100410350,
  353701027001084192967500, 353730866057292949557400, 354130957686366136973000, 354221049315439324388400, 354330829592981590766600,
  354370917139855326156500, 354410740211193988556900, 354611118630157380383000, 354630802930115265371700, 354690993353860530846200,
  354750883492631664035200, 354860707542770963051800, 354880741354063570919100, 354920883492631664035200, 354960939454210457577500,
  354980663242468220328900, 355040893500977519733500, 355190796742574893562900, 355221187944875436377500, 355240980000721268393900,
  355270666996260152235450, 355310931449939690223900, 355420883492631664035200, 355690826853084171955100, 355760796742574893562900,
  355840931449939690223900, 355861118630157380383000, 356090862135221634229300, 356110993353860530846200, 356130775231436931868300,
  356410809525912044551400, 356720862135221634229300, 356960744863195552046200, 357121078083646569566600, 357220669766520407169000,
  357450883492631664035200, 357480993353860530846200, 357520713451662600052500, 357570749742211968989400, 357580744863195552046200,
  357600772056567100410350, 357620993353860530846200, 357630826853084171955100, 357700883492631664035200, 357740866057292949557400,
  357751027001084192967500, 357800957686366136973000, 357820862135221634229300, 357891049315439324388400, 357990829592981590766600,
  358020741354063570919100, 358031118630157380383000, 358050740211193988556900, 358090917139855326156500, 358210707542770963051800,
  358230883492631664035200, 358260939454210457577500, 358280663242468220328900, 358310931449939690223900, 358320796742574893562900,
  358351078083646569566600, 358410893500977519733500, 358430796742574893562900, 358441187944875436377500, 358460980000721268393900,
  358480666996260152235450, 358510931449939690223900, 358591118630157380383000, 358740775231436931868300, 358780862135221634229300,
  358800809525912044551400, 358951027001084192967500, 359050776857489019046400, 359100980000721268393900, 359120773631402797224200,
  359200653234122364630650, 359371078083646569566600, 359460802930115265371700, 359621187944875436377500, 359800910686003212399300,
  359871118630157380383000, 360000798762845625314800, 360010832410069287436200, 360070917139855326156500, 360080773631402797224200,
  360090948155348156540400, 360100645010312540933400, 360111187944875436377500, 360120832410069287436200, 360200898907699646761000,
  360231008768928513572000, 360270870139492401583000, 360291049315439324388400, 360360957686366136973000, 360420866057292949557400,
  360511027001084192967500, 360620757538366115960600, 360640993353860530846200, 360660968222417702755500, 360670785409706362862600,
  360680948155348156540400, 360741008768928513572000, 360770888371648080978500, 360930893500977519733500, 361060819056930024984000,
  361270798762845625314800, 361300832410069287436200, 361310832410069287436200, 361320968222417702755500, 361330847825137270161900,
  361350773631402797224200, 361361008768928513572000, 361370948155348156540400, 361380645010312540933400, 361390917139855326156500,
  361431187944875436377500, 361450948155348156540400, 361490898907699646761000, 361530870139492401583000, 361551049315439324388400,
  361560866057292949557400, 361590957686366136973000, 361720888371648080978500, 361750757538366115960600, 361800993353860530846200,
  361870893500977519733500, 361900819056930024984000, 361960692362169676251400, 362030792820503578234800, 362080651347273934192400,
  362120874395453843462500, 362140874395453843462500, 362150725447594107950400, 362250778510419214167500, 362290878840630100545900,
  362340898907699646761000, 362350742510145811026800, 362450874395453843462500, 362640742510145811026800, 362750729448127569320400,
  362860829592981590766600, 362910751000090189675350, 362990893500977519733500, 363350826853084171955100, 363391118630157380383000,
  363640798762845625314800, 363670910686003212399300, 363721118630157380383000, 364051027001084192967500, 364131027001084192967500,
  364251118630157380383000, 364331118630157380383000, 364900798762845625314800, 364930751000090189675350, 365131118630157380383000,
  365230569529986342629200, 365240993353860530846200, 365540826853084171955100, 365570835308822974761400, 365620789046470779950050,
  365750794762312163945000, 366170847825137270161900, 366290585358278053846100, 366700819056930024984000, 366710888371648080978500,
  366810659118172366924000, 367030656132876051955900, 367100826853084171955100, 367130789046470779950050, 367160659118172366924000,
  367190794762312163945000, 367200656132876051955900, 367310585358278053846100, 367330847825137270161900, 367590819056930024984000,
  367661118630157380383000, 367771187944875436377500, 367811118630157380383000, 367831187944875436377500, 367980780191131045805500,
  368020829592981590766600, 368050862135221634229300, 368070710032526125224500, 368140704316684741229700, 368160805080735787468000,
  368170729448127569320400, 368200862135221634229300, 368251027001084192967500, 368270729448127569320400, 368280693068886398560700,
  368290819056930024984000, 368300776857489019046400, 368310939454210457577500, 368370727427856837568400, 368430576355662888074100,
  368481078083646569566600, 368550904623541030756000, 368610796742574893562900, 368640878840630100545900, 368651008768928513572000,
  368660731510056289593900, 368670854724424418857000, 368700790915684081165350, 368731008768928513572000, 368770862135221634229300]

def emitB15_5 : List Nat := [
  368800898907699646761000, 368891027001084192967500, 368900665370208065057400, 368941118630157380383000, 368950858361188835944600,
  368960893500977519733500, 368980748499959969133700, 368990776857489019046400, 369130785409706362862600, 369140729448127569320400,
  369201118630157380383000, 369240858361188835944600, 369290924039142474851600, 369301118630157380383000, 369351008768928513572000,
  369380732557186276323400, 369390805080735787468000, 369410783639748652922500, 369420710032526125224500, 369431187944875436377500,
  369441027001084192967500, 369470744863195552046200, 369480780191131045805500, 369490819056930024984000, 369510898907699646761000,
  369530723505785522240250, 369600693068886398560700, 369631118630157380383000, 369650723505785522240250, 369690731510056289593900,
  369731118630157380383000, 369740824186259463739000, 369780939454210457577500, 369841008768928513572000, 369860898907699646761000,
  369910792820503578234800, 369921008768928513572000, 369940948155348156540400, 370340993353860530846200, 370390993353860530846200,
  370570743679749787345800, 370661078083646569566600, 370730753564333251009100, 371451118630157380383000, 371650753564333251009100,
  371971118630157380383000, 372020783639748652922500, 372190904623541030756000, 372250931449939690223900, 372400870139492401583000,
  372551027001084192967500, 372570807278626459345500, 372610948155348156540400, 372760980000721268393900, 373240789046470779950050,
  373250653711450239896400, 373260802930115265371700, 373270756196064082746500, 373290588798420725579300, 373400841371285156404800,
  373410725447594107950400, 373471187944875436377500, 374061118630157380383000, 374631187944875436377500, 374760980000721268393900,
  374921049315439324388400, 375090844546154987863000, 375280931449939690223900, 375550980000721268393900, 375590781900574381735600,
  375710910686003212399300, 375800776857489019046400, 375860904623541030756000, 376100696679386862772350, 376481187944875436377500,
  376570968222417702755500, 376700710032526125224500, 376790662195338233599350, 377330883492631664035200, 378010904623541030756000,
  378060883492631664035200, 378470910686003212399300, 378570993353860530846200, 378601118630157380383000, 379120957686366136973000,
  379410731510056289593900, 379560939454210457577500, 379691049315439324388400, 380120847825137270161900, 380131008768928513572000,
  380151187944875436377500, 380240725447594107950400, 380351187944875436377500, 380470957686366136973000, 380540711727481956601900,
  380551118630157380383000, 380570980000721268393900, 380671187944875436377500, 380751008768928513572000, 380810731510056289593900,
  381080844546154987863000, 381160776857489019046400, 381210904623541030756000, 381250931449939690223900, 381360939454210457577500,
  381380696679386862772350, 381430910686003212399300, 381440781900574381735600, 381550904623541030756000, 381600980000721268393900,
  381620910686003212399300, 381690662195338233599350, 381790847825137270161900, 381811187944875436377500, 381820710032526125224500,
  381930968222417702755500, 381940883492631664035200, 382101118630157380383000, 382150883492631664035200, 382360993353860530846200,
  382630587063556892118000, 382710587063556892118000, 382720696679386862772350, 382750904623541030756000, 382810752273992767418300,
  382830632648916944215800, 382900794762312163945000, 383391078083646569566600, 383561118630157380383000, 383641078083646569566600,
  383760696679386862772350, 383780904623541030756000, 383810752273992767418300, 383820742510145811026800, 383860794762312163945000,
  383910794762312163945000, 383950694497482123308350, 384181078083646569566600, 384221118630157380383000, 384500758898931321538400,
  384510847825137270161900, 384520677350328046319500, 384630893500977519733500, 384680910686003212399300, 384720878840630100545900,
  384770917139855326156500, 384951118630157380383000, 385000888371648080978500, 385120677350328046319500, 385150878840630100545900,
  385250847825137270161900, 385430641986324021961600, 385440781900574381735600, 385480862135221634229300, 385680641986324021961600,
  385770781900574381735600, 385900605050313675356800, 385931187944875436377500, 385960716094988306868100, 385980931449939690223900,
  386050847825137270161900, 386130811824863867021300, 386141008768928513572000, 386170854724424418857000, 386200748499959969133700,
  386220695946782853565000, 386260744863195552046200, 386270605050313675356800, 386320763095351231441600, 386340716991855305144100,
  386420910686003212399300, 386460939454210457577500, 386470770506148446813800, 386510980000721268393900, 386540910686003212399300,
  386571118630157380383000, 386601187944875436377500, 386630702741849044415800, 386950910686003212399300, 387171118630157380383000,
  387280708365820876703400, 387380682959274711423800, 387451027001084192967500, 387481027001084192967500, 387500667544206728698000,
  387520819056930024984000, 387531187944875436377500, 387540573098045844612900, 387611008768928513572000, 387970851215292437730000,
  388160858361188835944600, 388290847825137270161900, 388591187944875436377500, 388760832410069287436200, 388861187944875436377500,
  388920832410069287436200, 388990898907699646761000, 389110957686366136973000, 389140756196064082746500, 389150787211556913130400,
  389170931449939690223900, 389180646334835215935500, 389241187944875436377500, 389291187944875436377500, 389311008768928513572000,
  389480790915684081165350, 389570610800763123375900, 389890980000721268393900, 389911118630157380383000, 390001118630157380383000,
  390030732557186276323400, 390150709195701158172900, 390230634211448734523800, 390300756196064082746500, 390310787211556913130400,
  390330931449939690223900, 390340646334835215935500, 390371187944875436377500, 390380709195701158172900, 390391008768928513572000,
  390421187944875436377500, 390560790915684081165350, 390681118630157380383000, 390690980000721268393900, 390720732557186276323400,
  390800484330026061323900, 391080888371648080978500, 391180484330026061323900, 391280888371648080978500, 391310678569855355701300,
  391340678569855355701300, 391350821588710823412800, 391380796742574893562900, 391511027001084192967500, 391540878840630100545900,
  391650741354063570919100, 391780733615397209377100, 391841027001084192967500, 391870939454210457577500, 391920993353860530846200,
  392501187944875436377500, 392531078083646569566600, 392620924039142474851600, 392690796742574893562900, 392771027001084192967500,
  392780878840630100545900, 392810741354063570919100, 392861187944875436377500, 392950939454210457577500, 393070924039142474851600,
  393180635798783650152900, 393210948155348156540400, 393400662195338233599350, 393470695219506920657100, 393761118630157380383000,
  393810917139855326156500, 393910924039142474851600, 394050773631402797224200, 394380980000721268393900, 394720841371285156404800,
  394791078083646569566600, 395010883492631664035200, 395090824186259463739000, 395140544811767243029600, 395191187944875436377500,
  395221118630157380383000, 395320662195338233599350, 395360695219506920657100, 395401118630157380383000, 395430924039142474851600,
  395471118630157380383000, 395500917139855326156500, 395530883492631664035200, 395560824186259463739000, 395590773631402797224200,
  395690980000721268393900, 395781078083646569566600, 395881187944875436377500, 395920824186259463739000, 396161027001084192967500,
  396360858361188835944600, 396400582032555878197800, 397170814177913608040700, 397290743679749787345800, 397400660133409513325800,
  397460721600966025170800, 397481008768928513572000, 397610957686366136973000, 397641008768928513572000, 397700698160895441286400,
  397911078083646569566600, 398251118630157380383000, 398540761676887732245960, 398810957686366136973000, 399731049315439324388400,
  400230854724424418857000, 400600698160895441286400, 400651078083646569566600, 400771118630157380383000, 400920761676887732245960,
  401000957686366136973000, 401431049315439324388400, 401580854724424418857000, 401650838294119289729500, 401691078083646569566600,
  401790824186259463739000, 401800790915684081165350, 402010729448127569320400, 402510993353860530846200, 402850931449939690223900,
  403001078083646569566600, 403061027001084192967500, 403291118630157380383000, 403670968222417702755500, 403720829592981590766600,
  404400910686003212399300, 404411118630157380383000, 404740980000721268393900, 404781187944875436377500, 404790838294119289729500,
  404801078083646569566600, 404810695946782853565000, 404830790915684081165350, 404860729448127569320400, 405101187944875436377500,
  405110993353860530846200, 405170931449939690223900, 405221027001084192967500, 405271078083646569566600, 405291118630157380383000,
  405480829592981590766600, 405500980000721268393900, 405560910686003212399300, 405601118630157380383000, 405750968222417702755500,
  406071187944875436377500, 406350737963908403351000, 406430851215292437730000, 406440851215292437730000, 406570742510145811026800,
  406600993353860530846200, 406640736858924784692500, 406700854724424418857000, 406800888371648080978500, 406870807278626459345500,
  407001187944875436377500, 407180794762312163945000, 407230939454210457577500, 407360931449939690223900, 407630957686366136973000,
  407780724471976613413900, 407840724471976613413900, 407960844546154987863000, 408390844546154987863000, 408450729448127569320400,
  408480763095351231441600, 408570729448127569320400]

def emitB16_0 : List Nat := [
  245150000000000000000000]

def emitB17_0 : List Nat := [
  199680351194987649386330, 199710878261571171139000, 199750947576289227133600, 199770426578009179119800, 199780329480559326674100,
  199870821009651894005900, 199900623175109413159200, 199940779612072116398650, 199960481576022765784900, 200040493926095514114750,
  200050979421662338987000, 200071187365816506970600, 200100660065860650595900, 200130233942433867917000, 200181077504587640159500,
  200200992774801601439300, 200270749163153039582400, 200440957107307207566000, 200500823607200534332000, 200520930870880760816800,
  200610679225380008524300, 200700916560796396749600, 200940813598854678633800, 201080566506813897307700, 201130668627235922895100,
  201160479954134887234300, 201220598201395324393500, 201260598201395324393500, 201320492284339662712200, 201350379963194894564400,
  201370916560796396749600, 201400624964065888236800, 201540452571434192101800, 201711008189869584165000, 201790713745971667521050,
  201951048736380394981500, 201970769927089517406850, 202020829013922661359500, 202100992774801601439300, 202250834729764045354400,
  202341026422025263560500, 202470930870880760816800, 202500685637832825478100, 202560992774801601439300, 202660869560433472176000,
  203020804501676858061100, 203030992774801601439300, 203070798183786695907900, 203160776278430089639500, 203790904044482101349000,
  203921008189869584165000, 204200639301924172771400, 204450722926726592833300, 204491026422025263560500, 204890713745971667521050,
  204910660065860650595900, 205510843967096058455900, 205990904044482101349000, 206050869560433472176000, 206481048736380394981500,
  206590992774801601439300, 206891008189869584165000, 207110800245715416181500, 207360829013922661359500, 207861048736380394981500,
  207991048736380394981500, 208080938875151528170600, 208090574460795500916100, 208181048736380394981500, 208221187365816506970600,
  208231187365816506970600, 208260642261971150400500, 208371118051098450976000, 208390769927089517406850, 208400792241444648827800,
  208410493926095514114750, 208430610846706228486100, 208440796163515964156000, 208450600154037559429000, 208481118051098450976000,
  208490745481755727310800, 208510768400342304328000, 208520729894718656632300, 208590930870880760816800, 208640957107307207566000,
  208690769927089517406850, 208771187365816506970600, 208910583340345379229100, 208920456981493979200200, 208960992774801601439300,
  209000892921918590326600, 209080727853831493511550, 209190898328640717354000, 209341118051098450976000, 209430762516292302034700,
  209601118051098450976000, 209860672036657057192700, 209890992774801601439300, 209980796163515964156000, 210021118051098450976000,
  210090557287237040646100, 210160957107307207566000, 210190557287237040646100, 210210992774801601439300, 210690706963712033644900,
  210951008189869584165000, 211090557287237040646100, 211271008189869584165000, 211290957107307207566000, 211500873816394914055600,
  211521118051098450976000, 211600561982935349423200, 211610923460083545444700, 211710992774801601439300, 212050561982935349423200,
  212140992774801601439300, 212200979421662338987000, 212710452442734045637100, 213061026422025263560500, 213070559513674090386100,
  213121026422025263560500, 213130419486916687055200, 213191048736380394981500, 213201187365816506970600, 213260739632135059149900,
  213270869560433472176000, 213320869560433472176000, 213350502565289049334300, 213381026422025263560500, 213550831831010358029100,
  213600720082933060779950, 213611048736380394981500, 213780755617005153339500, 213811008189869584165000, 214070957107307207566000,
  214141187365816506970600, 214161077504587640159500, 214390892921918590326600, 214420831831010358029100, 214430831831010358029100,
  214511118051098450976000, 214520762516292302034700, 214530671460286585517700, 214570658035334034521300, 214620904044482101349000,
  214880619348555605263850, 214960979421662338987000, 215071008189869584165000, 215120831831010358029100, 215131026422025263560500,
  215160293814945356648400, 215170773052343867817300, 215180746693891780545300, 215441187365816506970600, 215550967643358773348600,
  215560967643358773348600, 215740916560796396749600, 216280802351056335964700, 216720850636233508323200, 217040783060689723515600,
  217461077504587640159500, 217671118051098450976000, 218300638059672172915700, 219301187365816506970600, 219320930870880760816800,
  221361187365816506970600, 221960979421662338987000, 222350421213108371118850, 222420829013922661359500, 222690382359274215373950,
  222781026422025263560500, 222830382359274215373950, 222911026422025263560500, 222960829013922661359500, 223031118051098450976000,
  223200668627235922895100, 223741077504587640159500, 224671048736380394981500, 224780556920936264772400, 225190916560796396749600,
  225220869560433472176000, 226091077504587640159500, 226220967643358773348600, 226591118051098450976000, 227680904044482101349000,
  227881187365816506970600, 227970898328640717354000, 227990834729764045354400, 228060668627235922895100, 228101048736380394981500,
  228120992774801601439300, 228230534132387284735600, 228250657035325701063000, 228260503847357892240400, 228300329273928277292340,
  228421118051098450976000, 228850543750779670027800, 228870543750779670027800, 228901118051098450976000, 228990813598854678633800,
  229190750421031260268500, 229221077504587640159500, 229960714627034635736500, 231300677379173724550700, 231420750421031260268500,
  231561187365816506970600, 233441187365816506970600, 233810869560433472176000, 233840762516292302034700, 233961187365816506970600,
  233980887792589151571400, 234160887792589151571400, 234330643557885614651100, 234571187365816506970600, 234580769927089517406850,
  234590887792589151571400, 234780442299736885816700, 235291187365816506970600, 235530967643358773348600, 235600821009651894005900,
  235670967643358773348600, 235690821009651894005900, 235881118051098450976000, 236121048736380394981500, 236150947576289227133600,
  236160813598854678633800, 236210730930997360186900, 236371077504587640159500, 236650916560796396749600, 240290752985274321602200,
  240370407760019075358200, 240380766896554567874000, 240520693201574246040100, 240660673785972801944400, 240671077504587640159500,
  240720777931360284760500, 241070777931360284760500, 241200603011374803834600, 241780676167037671316250, 241790829013922661359500,
  241800418520280851976200, 241850676167037671316250, 241880947576289227133600, 241901118051098450976000, 241910608064455668556200,
  242201077504587640159500, 242231187365816506970600, 242641187365816506970600, 242821077504587640159500, 242880755617005153339500,
  242901187365816506970600, 242910608064455668556200, 243071008189869584165000, 243140475645266190536100, 243201008189869584165000,
  243410745481755727310800, 243751187365816506970600, 243781187365816506970600, 244250979421662338987000, 244331187365816506970600,
  244490734105867191645000, 244591187365816506970600, 244600746693891780545300, 244940734105867191645000, 245010734105867191645000,
  245030543911164628225300, 245150898328640717354000, 245550967643358773348600, 246131187365816506970600, 246350703737625811822700,
  246460615334638846229400, 246580615334638846229400, 248471008189869584165000, 251031048736380394981500, 251040777931360284760500,
  251120898328640717354000, 251360898328640717354000, 251381048736380394981500, 251420741931086881619800, 251430741931086881619800,
  251510293722846146138600, 251630992774801601439300, 251710887792589151571400, 251761187365816506970600, 251910916560796396749600,
  251951118051098450976000, 252061026422025263560500, 252091187365816506970600, 252160700612371461412300, 252370692489827469153800,
  252390706963712033644900, 252861026422025263560500, 252890619690436280142350, 253070564317671749122400, 253201187365816506970600,
  254751118051098450976000, 254840662663409290922000, 254901008189869584165000, 255051187365816506970600, 255090766896554567874000,
  255111187365816506970600, 257050910106944282992500, 257651187365816506970600, 259030850636233508323200, 259100904044482101349000,
  259130736279865855285550, 259180923460083545444700, 259190521564711919895800, 259450746693891780545300, 259680614355838209613100,
  259760614355838209613100, 259910568334275921655900, 260320706963712033644900, 260530861556162704822400, 260800979421662338987000,
  260850444949288402767700, 260890910106944282992500, 260970898328640717354000, 261180816008609836539700, 261260744284136622639200,
  261490768400342304328000, 261740957107307207566000, 261850648458643525320500, 261870648458643525320500, 262021187365816506970600,
  262221026422025263560500, 262300979421662338987000, 262341118051098450976000, 262800882913572734628400, 263600916560796396749600,
  263641008189869584165000, 263681048736380394981500, 263710685637832825478100, 263760539055081361250700, 263770947576289227133600,
  263970781321515452328600, 263990712872603670645600, 264120887792589151571400, 264260904044482101349000, 264350992774801601439300,
  264490670317417003155400, 264651008189869584165000, 264810481576022765784900, 264941026422025263560500, 264971077504587640159500,
  265190811245804937614200, 265240808946853115144500, 266110829013922661359500, 266570992774801601439300, 266800762516292302034700,
  266841187365816506970600, 266900957107307207566000, 266961077504587640159500, 267811008189869584165000, 268271187365816506970600,
  268620811245804937614200, 269890779612072116398650, 269971077504587640159500, 270101187365816506970600, 272310904044482101349000,
  274020992774801601439300, 274310463014519040422500, 274720463014519040422500, 274910938875151528170600, 274931118051098450976000,
  274940598478020673682500, 275150857782129906537700, 275311008189869584165000, 275441008189869584165000, 275971026422025263560500,
  276021077504587640159500, 276110938875151528170600, 276650611160678228952900, 277000783060689723515600, 277210615007306311732500,
  277430507348809676750600, 277481118051098450976000, 277730790336625151758400, 277840957107307207566000, 278180503739888779263900,
  278270938875151528170600, 278330747920901039726700, 278350898328640717354000, 278610737384849473944100, 278670734105867191645000,
  278741077504587640159500, 279150904044482101349000, 279271048736380394981500, 279340967643358773348600, 279410743100690857938950,
  279630727853831493511550, 279691118051098450976000, 279931118051098450976000, 280060837715060360322600, 280230642261971150400500,
  280400796163515964156000, 280720627153934419000500, 281291118051098450976000, 281450382104334625413900, 281511008189869584165000]

def emitB17_1 : List Nat := [
  281650636426982844172900, 281831187365816506970600, 281870762516292302034700, 282010916560796396749600, 282070632458208017448600,
  282461077504587640159500, 282480537990432521801900, 282711118051098450976000, 283101118051098450976000, 283310916560796396749600,
  283590717317779927729000, 283851077504587640159500, 283960503739888779263900, 284021187365816506970600, 284151077504587640159500,
  284361187365816506970600, 284500615007306311732500, 284660627153934419000500, 285950979421662338987000, 287480904044482101349000,
  287790645312316579742000, 288140887792589151571400, 288600904044482101349000, 288790957107307207566000, 289091077504587640159500,
  289610979421662338987000, 290010904044482101349000, 290280605061226958668700, 291051077504587640159500, 291231118051098450976000,
  292380878261571171139000, 292890878261571171139000, 293050676167037671316250, 293061118051098450976000, 293511118051098450976000,
  294200710297354060404100, 294821187365816506970600, 295440710297354060404100, 295791008189869584165000, 296150339147058285228380,
  296270979421662338987000, 296640673199460856704600, 296771008189869584165000, 297021118051098450976000, 297900611475639119242500,
  298720339147058285228380, 299761187365816506970600, 299830625325729935255600, 299860379963194894564400, 299961187365816506970600,
  300001026422025263560500, 300021118051098450976000, 300031118051098450976000, 300050704534442776740500, 300070804501676858061100,
  300450916560796396749600, 300950992774801601439300, 301490804501676858061100, 303320658035334034521300, 303340957107307207566000,
  303580873816394914055600, 304160664254954821511900, 304170831831010358029100, 304350831831010358029100, 304500979421662338987000,
  304520947576289227133600, 304650572092547036560200, 305260930870880760816800, 307011026422025263560500, 307070444830027804255400,
  307170979421662338987000, 307190743100690857938950, 307400449840238705995200, 307890979421662338987000, 308300967643358773348600,
  309060967643358773348600, 309671008189869584165000, 310140743100690857938950, 310380599872743421767600, 311051187365816506970600,
  311190923460083545444700, 311631077504587640159500, 311690837715060360322600, 311811187365816506970600, 311850663191115001006400,
  312060745481755727310800, 312370798183786695907900, 312460798183786695907900, 312781187365816506970600, 313540784830647433455650,
  314350648916310228061600, 314491048736380394981500, 316091187365816506970600, 316490728869068639913400, 316651187365816506970600,
  316800992774801601439300, 317261077504587640159500, 318111077504587640159500, 318201187365816506970600, 319080938875151528170600,
  319180682380215782016900, 319250938875151528170600, 319750682380215782016900, 319981008189869584165000, 320000613708586759051400,
  320050689005154336136900, 320130726848797908161400, 320680979421662338987000, 320800916560796396749600, 321020873816394914055600,
  321130850636233508323200, 321470580755007496595800, 321560492764417397047900, 321730599872743421767600, 321780947576289227133600,
  322180957107307207566000, 322320773052343867817300, 322910892921918590326600, 323170703737625811822700, 324161008189869584165000,
  324180689005154336136900, 324260613708586759051400, 324350726848797908161400, 324470957107307207566000, 324520979421662338987000,
  324630580755007496595800, 324670916560796396749600, 324730873816394914055600, 324790850636233508323200, 325000599872743421767600,
  325080492764417397047900, 325340773052343867817300, 325930947576289227133600, 326020967643358773348600, 326240967643358773348600,
  326260823607200534332000, 326540436596808724980200, 326761026422025263560500, 327690724868535178543500, 327711008189869584165000,
  328440834729764045354400, 328520558394259416070900, 328790558394259416070900, 328820904044482101349000, 328870834729764045354400,
  329051187365816506970600, 329251187365816506970600, 329290682380215782016900, 330160979421662338987000, 330341118051098450976000,
  332560992774801601439300, 332580865478234020150500, 332880729894718656632300, 333100930870880760816800, 333220721021907095763800,
  333370843967096058455900, 334020979421662338987000, 334100992774801601439300, 334570930870880760816800, 334870546842970703886400,
  335210535894547419717600, 335900967643358773348600, 336091187365816506970600, 336470818477871095577000, 337750739632135059149900,
  338321077504587640159500, 338360947576289227133600, 338890992774801601439300, 340130517662391740322100, 340920821009651894005900,
  342171077504587640159500, 342530517662391740322100, 342551048736380394981500, 342690979421662338987000, 342770818477871095577000,
  343110546842970703886400, 343491118051098450976000, 343891187365816506970600, 347011026422025263560500, 348800816008609836539700,
  348920554037853693001600, 349030930870880760816800, 349070831831010358029100, 349171118051098450976000, 349870834729764045354400,
  350091187365816506970600, 350131118051098450976000, 350361118051098450976000, 350371118051098450976000, 351990638472043891301900,
  352151026422025263560500, 352221187365816506970600, 352681026422025263560500, 352701187365816506970600, 352991187365816506970600,
  353360706963712033644900, 353471048736380394981500, 353521077504587640159500, 353591187365816506970600, 353701077504587640159500,
  354131077504587640159500, 354691187365816506970600, 355191187365816506970600, 355660850636233508323200, 356570440514489357336900,
  356860892921918590326600, 356950938875151528170600, 357450706963712033644900, 357481187365816506970600, 357571048736380394981500,
  357601077504587640159500, 357721187365816506970600, 357751077504587640159500, 357770440514489357336900, 357801077504587640159500,
  357930938875151528170600, 358431187365816506970600, 359470947576289227133600, 359481187365816506970600, 359971187365816506970600,
  360010563924743935133400, 360070729894718656632300, 360080957107307207566000, 360120992774801601439300, 360241077504587640159500,
  360310873816394914055600, 360360865478234020150500, 360391118051098450976000, 360740726848797908161400, 361251187365816506970600,
  361300563924743935133400, 361310992774801601439300, 361350957107307207566000, 361360726848797908161400, 361390729894718656632300,
  361511077504587640159500, 361520873816394914055600, 361590865478234020150500, 361641118051098450976000, 362290826274025242548000,
  362340804501676858061100, 362750715515929377461100, 365540609910661952529800, 365570583340345379229100, 365750707786761947296500,
  366290609910661952529800, 366641118051098450976000, 366810826274025242548000, 367100609910661952529800, 367160826274025242548000,
  367190707786761947296500, 367310609910661952529800, 367551118051098450976000, 367740873816394914055600, 367860456981493979200200,
  367930904044482101349000, 367970755617005153339500, 368141187365816506970600, 368160857782129906537700, 368170704534442776740500,
  368270843967096058455900, 368281118051098450976000, 368290930870880760816800, 368640930870880760816800, 368671118051098450976000,
  368700979421662338987000, 368900342260477615801360, 369140843967096058455900, 369390857782129906537700, 369470571456277657777300,
  369490930870880760816800, 369601118051098450976000, 369880755617005153339500, 370020904044482101349000, 370380723892917684007000,
  370730788467411850543200, 370960636426982844172900, 371090723892917684007000, 371220759699204605365000, 371650788467411850543200,
  372910559513674090386100, 373191187365816506970600, 373250698330903684795250, 373290826274025242548000, 375040802351056335964700,
  376281187365816506970600, 376720854145365489450200, 376751026422025263560500, 378060979421662338987000, 378570898328640717354000,
  379411118051098450976000, 380130882913572734628400, 380501187365816506970600, 380750882913572734628400, 380811118051098450976000,
  381340802351056335964700, 381700854145365489450200, 381771026422025263560500, 382150979421662338987000, 382360898328640717354000,
  382630630531366130860900, 382710630531366130860900, 382720837715060360322600, 382831008189869584165000, 383130786632497983723500,
  383640768400342304328000, 383760837715060360322600, 383970786632497983723500, 384500600436125193593100, 384630992774801601439300,
  384680784830647433455650, 384700746693891780545300, 384850664791149135650450, 384930664791149135650450, 384981187365816506970600,
  385200746693891780545300, 385980910106944282992500, 386170762516292302034700, 386261077504587640159500, 386420668627235922895100,
  386510704534442776740500, 387380563728857486600200, 387500722926726592833300, 387610696838338663127650, 387951187365816506970600,
  388990930870880760816800, 389180923460083545444700, 389280967643358773348600, 390230957107307207566000, 390340923460083545444700,
  390440967643358773348600, 390801187365816506970600, 391181187365816506970600, 391540957107307207566000, 391780930870880760816800,
  392780957107307207566000, 393180865478234020150500, 393400762516292302034700, 393810734105867191645000, 395320762516292302034700,
  395500734105867191645000, 396360798183786695907900, 396400510977325650727100, 397590543430779396960700, 397910749163153039582400,
  400650749163153039582400, 405730664254954821511900, 406430648003061871734400, 406440648003061871734400, 406600892921918590326600,
  406800642261971150400500, 408451008189869584165000, 408571008189869584165000]

def emitB18_0 : List Nat := [
  199960040546510810816444, 201350109861228866810980, 264810040546510810816444, 299860109861228866810980]

def emitB20_0 : List Nat := [
  199680366407211066344640, 199710782627958015596600, 199750661414346519086900, 199770573664427028658800, 199780534547971232061950,
  199790550904817164468150, 199810331200311140794800, 199820676100371175544900, 199851124400626376933200, 199870620705366135570400,
  199880723667307853686200, 199900522177005799459700, 199940953925817153090700, 199960782627958015596600, 199970652550739247423800,
  199990847141754152955000, 200020847141754152955000, 200040692651815023302200, 200050860494893415407300, 200060705435152174290700,
  200071014539397510122300, 200100734203359419468800, 200130595070143904484000, 200160864131657832494900, 200181124400626376933200,
  200200985771190264944200, 200251193715344432927800, 200260557240268747736700, 200270732203292748801800, 200300727371435021721100,
  200370725502221720505800, 200410636880894056818100, 200450963456835133523300, 200470867905690630779600, 200480871827761946107700,
  200560810851204784018300, 200570789410217649472750, 200610937220408686774100, 200630471824373671021750, 200650827359179819963200,
  200701193715344432927800, 200800929809611471401900, 200810835363450587316900, 200980835363450587316900, 201020827359179819963200,
  201050742629393781242800, 201070408782962628871700, 201080639981917731074100, 201100867905690630779600, 201130810851204784018300,
  201140771764573915317100, 201160708512318040966100, 201171193715344432927800, 201270871827761946107700, 201291055085908320938700,
  201320565301928325847600, 201350593573856636812800, 201390810851204784018300, 201420853595606266712200, 201460698839355395110900,
  201540439759461502824800, 201611124400626376933200, 201650680135500727901650, 201740564004412439534250, 201820606503565485386200,
  201840744851707459713800, 201850973992886699305800, 201950791180175359412900, 201960575506853761264650, 201970602907050616034700,
  202020867905690630779600, 202080689372832741003100, 202150662888574692807350, 202190922910324322706700, 202391124400626376933200,
  202470856985761434280300, 202480741536486728023700, 202501032771553189517800, 202560770304693973201900, 202600847141754152955000,
  202620953925817153090700, 202840756770559186225600, 202941124400626376933200, 203010937220408686774100, 203020815296381041101600,
  203070856985761434280300, 203080841079291971311700, 203090880165922840012800, 203130953925817153090700, 203200582568610482659900,
  203510661903345048506200, 203551032771553189517800, 203580864131657832494900, 203790638419385940766000, 203810678386184983149800,
  203900889263100660585500, 203991083854115566116900, 204151032771553189517800, 204191193715344432927800, 204390619095025378912500,
  204450737280525286144200, 204490937220408686774100, 204620856985761434280300, 204631032771553189517800, 204910734203359419468800,
  204980740455395117602200, 205050693994117056516300, 205110751831283653268000, 205230953925817153090700, 205381124400626376933200,
  205400731218063104500700, 205421193715344432927800, 205510832623553168505400, 205591014539397510122300, 205701124400626376933200,
  205720985771190264944200, 205810999124329527396400, 205970889263100660585500, 205990985771190264944200, 206480894142117077528700,
  206521055085908320938700, 206581014539397510122300, 206590770304693973201900, 206611124400626376933200, 206630847141754152955000,
  206670832623553168505400, 206701193715344432927800, 206770680135500727901650, 206870864131657832494900, 207210700267951119858600,
  207290662888574692807350, 207360867905690630779600, 207541193715344432927800, 207780741536486728023700, 207860894142117077528700,
  207990791180175359412900, 208041193715344432927800, 208050894142117077528700, 208080953925817153090700, 208090681318946492601900,
  208131124400626376933200, 208180791180175359412900, 208201055085908320938700, 208260856985761434280300, 208370880165922840012800,
  208390999124329527396400, 208400661903345048506200, 208410692651815023302200, 208430763308835112510800, 208440698839355395110900,
  208490618776045842102500, 208510867905690630779600, 208520748280614807577000, 208530749450218783896200, 208540875909961398133200,
  208550999124329527396400, 208590806595243342138700, 208601032771553189517800, 208611124400626376933200, 208690999124329527396400,
  208770749450218783896200, 208910649041607266296800, 208920587803024874748100, 208960729276254518790500, 209000953925817153090700,
  209010764669400318088700, 209080798590972574785100, 209140973992886699305800, 209150999124329527396400, 209190922910324322706700,
  209340963456835133523300, 209401193715344432927800, 209431055085908320938700, 209571032771553189517800, 209600735218596565870600,
  209611124400626376933200, 209840985771190264944200, 209850827359179819963200, 209860599173283572270200, 209911193715344432927800,
  209921083854115566116900, 209980627767122856965700, 209990686824924210904600, 210090792982025909680700, 210101032771553189517800,
  210170973992886699305800, 210210633503462344957700, 210290748280614807577000, 210330880165922840012800, 210350748280614807577000,
  210381124400626376933200, 210400566805716062301600, 210460999124329527396400, 210630973992886699305800, 210661014539397510122300,
  210690653447606245699800, 210970391294595855070030, 211231032771553189517800, 211280916456472208949600, 211470871827761946107700,
  211510791180175359412900, 211520787671043378285900, 211600660927727553969650, 211610880165922840012800, 211631014539397510122300,
  211710572454734857775900, 211830838180538283986500, 211870904678168643311400, 211911032771553189517800, 212050660927727553969650,
  212130791180175359412900, 212140572454734857775900, 212180838180538283986500, 212200771764573915317100, 212430953925817153090700,
  212471055085908320938700, 212480953925817153090700, 212530864131657832494900, 212700520018648632742200, 212710679548988782661800,
  212950856985761434280300, 213060973992886699305800, 213120973992886699305800, 213130580810323426873200, 213150749450218783896200,
  213190748280614807577000, 213220698132638672801700, 213260916456472208949600, 213290910394010027306200, 213311083854115566116900,
  213330838180538283986500, 213340791180175359412900, 213350654808171451277700, 213380808700584261921800, 213440841079291971311700,
  213510829956728460289200, 213551124400626376933200, 213631032771553189517800, 213670844064588286279800, 213820767447356728796200,
  213851083854115566116900, 213870804533314621865000, 214070572655336730462500, 214261083854115566116900, 214350999124329527396400,
  214420904678168643311400, 214430904678168643311400, 214480744851707459713800, 214520929809611471401900, 214530718356325322291300,
  214570378265326917733600, 214620973992886699305800, 214630591613009497975100, 214640652105304212485800, 214650937220408686774100,
  214750784280888210717700, 214760810851204784018300, 214770963456835133523300, 214780819948382604591000, 214820835363450587316900,
  214860999124329527396400, 214870415184826178941600, 214900985771190264944200, 214941193715344432927800, 214950880165922840012800,
  215011193715344432927800, 215070625017808798945800, 215080495243712421101300, 215100945224679454127800, 215120648183232897157700,
  215130904678168643311400, 215140853595606266712200, 215160694672085755054200, 215170687455841130231100, 215180798590972574785100,
  215201124400626376933200, 215310683728701650508000, 215340884611099097096200, 215470963456835133523300, 215480953925817153090700,
  215510725502221720505800, 215580889263100660585500, 215600802513043890113100, 215610999124329527396400, 215661193715344432927800,
  215780674419659343906700, 215840889263100660585500, 215960767447356728796200, 216080841079291971311700, 216280768865820227991900,
  216290875909961398133200, 216380963456835133523300, 216440713313239959602100, 216750937220408686774100, 216760782627958015596600,
  217031083854115566116900, 217040584358367428414200, 217131014539397510122300, 217380860494893415407300, 217410759334802247559450,
  217540847141754152955000, 217670929809611471401900, 218060677236747040576400, 218070702449855859322600, 218090880165922840012800,
  218271083854115566116900, 218300602907050616034700, 218390755512680965539650, 218541014539397510122300, 218550725502221720505800,
  218630889263100660585500, 218800953925817153090700, 218921014539397510122300, 219160867905690630779600, 219170856985761434280300,
  219301014539397510122300, 219340838180538283986500, 219430973992886699305800, 219780767447356728796200, 220020953925817153090700,
  220380889263100660585500, 220391083854115566116900, 220630953925817153090700, 220641193715344432927800, 220681014539397510122300,
  221201124400626376933200, 221320973992886699305800, 221790889263100660585500, 221960860494893415407300, 222100889263100660585500,
  222180953925817153090700, 222350690020084191564900, 222380871827761946107700, 222400929809611471401900, 222420904678168643311400,
  222560813049095455895800, 222600904678168643311400, 222660517326853576684300, 222690564743787342028100, 222700875909961398133200,
  222780696734014475327700, 222830564743787342028100, 222850904678168643311400, 222910696734014475327700, 222940875909961398133200,
  222960904678168643311400, 223030634244206472743900, 223120853595606266712200, 223200691987360751435300, 223500973992886699305800,
  223510999124329527396400, 223520794816939776500300, 223530804533314621865000, 223621083854115566116900, 223630929809611471401900,
  224040735218596565870600, 224780856985761434280300, 225190835363450587316900, 225220609071466927155400, 225331083854115566116900,
  225701124400626376933200, 225770802513043890113100, 226220963456835133523300, 226351193715344432927800, 226860999124329527396400,
  227210953925817153090700, 227270929809611471401900, 227390804533314621865000, 227500999124329527396400, 227510735218596565870600,
  227630929809611471401900, 227660945224679454127800, 227670945224679454127800, 227680789410217649472750, 227880847141754152955000,
  227970766048732531322200, 227991193715344432927800, 228050871827761946107700, 228060827359179819963200, 228100570667199675079600,
  228120749450218783896200, 228150937220408686774100, 228160937220408686774100, 228180999124329527396400, 228230479908041028493050,
  228250550100307595985100, 228260693320713838381850, 228271193715344432927800, 228331014539397510122300, 228360731218063104500700,
  228390844064588286279800, 228401193715344432927800, 228410875909961398133200, 228460875909961398133200, 228521032771553189517800,
  228571124400626376933200, 228590835363450587316900, 228701124400626376933200, 228710875909961398133200, 228821055085908320938700]

def emitB20_1 : List Nat := [
  228940835363450587316900, 228990832623553168505400, 229000659481919236446700, 229021014539397510122300, 229090530120688864263200,
  229140594568889722129600, 229190815296381041101600, 229201055085908320938700, 229371193715344432927800, 229710904678168643311400,
  229930973992886699305800, 229960945224679454127800, 230411032771553189517800, 230471193715344432927800, 230571124400626376933200,
  230590929809611471401900, 231101193715344432927800, 231130904678168643311400, 231300899271446516283700, 231420815296381041101600,
  232291055085908320938700, 232671124400626376933200, 232700929809611471401900, 233050945224679454127800, 233081193715344432927800,
  233760824827399021534200, 233800916456472208949600, 233841124400626376933200, 233880894142117077528700, 233950562541863517636400,
  233960737280525286144200, 233980756770559186225600, 234080804533314621865000, 234160756770559186225600, 234251124400626376933200,
  234310661903345048506200, 234320847141754152955000, 234330789410217649472750, 234351014539397510122300, 234360945224679454127800,
  234390985771190264944200, 234480750633664548596400, 234500663384853627020200, 234531193715344432927800, 234540667446325542439200,
  234561124400626376933200, 234581014539397510122300, 234670880165922840012800, 234700880165922840012800, 234780615332826199954000,
  234850916456472208949600, 234861124400626376933200, 234901055085908320938700, 234940732203292748801800, 235000827359179819963200,
  235060916456472208949600, 235070985771190264944200, 235170791180175359412900, 235191193715344432927800, 235210875909961398133200,
  235220791180175359412900, 235260667446325542439200, 235271124400626376933200, 235320916456472208949600, 235411124400626376933200,
  235421193715344432927800, 235440794816939776500300, 235450471897660592587100, 235470835363450587316900, 235530542096036828631340,
  235561055085908320938700, 235600620705366135570400, 235621014539397510122300, 235630835363450587316900, 235650471897660592587100,
  235670673865641306345200, 235690591856022983304350, 235740880165922840012800, 235781032771553189517800, 235811083854115566116900,
  236010916456472208949600, 236081014539397510122300, 236130603999957669253700, 236180985771190264944200, 236210671679761925095300,
  236291014539397510122300, 236311193715344432927800, 236490776276617443364100, 236500776276617443364100, 236520985771190264944200,
  236650710883970702697700, 236811032771553189517800, 237031124400626376933200, 238311124400626376933200, 240330794816939776500300,
  240370549302218762883800, 240380864131657832494900, 240401193715344432927800, 240460455752129171972500, 240520730242445609964200,
  240621193715344432927800, 240660704680431610752400, 240670853595606266712200, 240721124400626376933200, 240760850316623984413200,
  241071124400626376933200, 241100999124329527396400, 241200596589160453881550, 241611014539397510122300, 241710999124329527396400,
  241780802513043890113100, 241790667446325542439200, 241800621030569674208100, 241820705435152174290700, 241840841079291971311700,
  241850802513043890113100, 241880867905690630779600, 241900735218596565870600, 241910692651815023302200, 241961193715344432927800,
  241981124400626376933200, 242120813049095455895800, 242130847141754152955000, 242301055085908320938700, 242650822358137762497000,
  242781124400626376933200, 242910692651815023302200, 243140910394010027306200, 243200587104535422553000, 243220806595243342138700,
  243230910394010027306200, 243410676666944929112600, 243570856985761434280300, 243750579511603874192200, 243770824827399021534200,
  243780579511603874192200, 243920824827399021534200, 243960856985761434280300, 244020773246082493831200, 244030856985761434280300,
  244131193715344432927800, 244180651220342684787600, 244250798590972574785100, 244330889263100660585500, 244430963456835133523300,
  244440963456835133523300, 244531032771553189517800, 244550973992886699305800, 244560659961536462796000, 244600798590972574785100,
  244640999124329527396400, 244660973992886699305800, 244710761966533079296800, 244780564004412439534250, 244900719222131596602750,
  244931124400626376933200, 244940611707051397691600, 245031193715344432927800, 245050963456835133523300, 245150638032538262974000,
  245170553689599902045700, 245180904678168643311400, 245351055085908320938700, 245361083854115566116900, 245370937220408686774100,
  245440871827761946107700, 245481014539397510122300, 245550999124329527396400, 245730782627958015596600, 245760832623553168505400,
  245900860494893415407300, 245940999124329527396400, 246050771764573915317100, 246130741536486728023700, 246140884611099097096200,
  246151032771553189517800, 246180789410217649472750, 246350707734103996760600, 246611083854115566116900, 246820880165922840012800,
  246850999124329527396400, 246940678386184983149800, 247080737280525286144200, 247130999124329527396400, 247360999124329527396400,
  247440674976763848852300, 247540832623553168505400, 247580824827399021534200, 247730630594166250791200, 247780804533314621865000,
  248010678386184983149800, 248091032771553189517800, 248161124400626376933200, 248190524011919666279400, 248250838180538283986500,
  248260937220408686774100, 248331032771553189517800, 248400687455841130231100, 248470585951120098024350, 248581014539397510122300,
  248590832623553168505400, 248630652998167286915900, 248681032771553189517800, 249100841079291971311700, 249170945224679454127800,
  249300894142117077528700, 249351124400626376933200, 249361083854115566116900, 249501124400626376933200, 249711124400626376933200,
  249961032771553189517800, 250001055085908320938700, 250140904678168643311400, 250330813049095455895800, 250741032771553189517800,
  250770853595606266712200, 250790832623553168505400, 250980759334802247559450, 251021083854115566116900, 251040662888574692807350,
  251050937220408686774100, 251120894142117077528700, 251360894142117077528700, 251400835363450587316900, 251520722762324301694400,
  251530880165922840012800, 251630794816939776500300, 251650844064588286279800, 251690792982025909680700, 251710598391011004149400,
  251761083854115566116900, 251791124400626376933200, 251910835363450587316900, 251930880165922840012800, 251950835363450587316900,
  251961014539397510122300, 251970688090763898097000, 252060922910324322706700, 252090910394010027306200, 252121083854115566116900,
  252141193715344432927800, 252151055085908320938700, 252160706961899387369550, 252200973992886699305800, 252261193715344432927800,
  252330963456835133523300, 252351083854115566116900, 252370953925817153090700, 252381032771553189517800, 252390651661844505699200,
  252431083854115566116900, 252481193715344432927800, 252500910394010027306200, 252530802513043890113100, 252590937220408686774100,
  252600867905690630779600, 252650904678168643311400, 252770736244246582589500, 252860963456835133523300, 252890742629393781242800,
  252911083854115566116900, 252930963456835133523300, 252980806595243342138700, 253021083854115566116900, 253070719222131596602750,
  253170871827761946107700, 253190953925817153090700, 253210999124329527396400, 253290963456835133523300, 253400743734377399901300,
  253420899271446516283700, 253430761966533079296800, 253451055085908320938700, 253461032771553189517800, 253510766048732531322200,
  253530703187866589084800, 253610875909961398133200, 253661124400626376933200, 253800985771190264944200, 253810810851204784018300,
  253841055085908320938700, 253871193715344432927800, 253910922910324322706700, 254131083854115566116900, 254170856985761434280300,
  254230856985761434280300, 254240963456835133523300, 254380916456472208949600, 254411055085908320938700, 254470916456472208949600,
  254750835363450587316900, 254811083854115566116900, 254841124400626376933200, 254900829956728460289200, 254991032771553189517800,
  255060999124329527396400, 255090611115333694882800, 255110999124329527396400, 255120973992886699305800, 255130999124329527396400,
  255141193715344432927800, 255301083854115566116900, 255520973992886699305800, 255541014539397510122300, 255621014539397510122300,
  255810904678168643311400, 255820810851204784018300, 256220804533314621865000, 256301083854115566116900, 256441083854115566116900,
  256450922910324322706700, 256540910394010027306200, 256580945224679454127800, 256700871827761946107700, 256710804533314621865000,
  256821193715344432927800, 256881014539397510122300, 257151193715344432927800, 257200703931364437836700, 257231083854115566116900,
  257360916456472208949600, 257441083854115566116900, 257451083854115566116900, 257460802513043890113100, 257490773246082493831200,
  257780792982025909680700, 257881083854115566116900, 257911055085908320938700, 257930871827761946107700, 257990999124329527396400,
  258050683120797042869700, 258100894142117077528700, 258240985771190264944200, 258300749450218783896200, 258400953925817153090700,
  258440880165922840012800, 258500871827761946107700, 258561193715344432927800, 258800867905690630779600, 258840945224679454127800,
  259031014539397510122300, 259100860494893415407300, 259131193715344432927800, 259150985771190264944200, 259180658529531085321100,
  259190676100371175544900, 259250889263100660585500, 259320832623553168505400, 259370728319309417175500, 259431055085908320938700,
  259440937220408686774100, 259450953925817153090700, 259540945224679454127800, 259640894142117077528700, 259680645235651083862300,
  259700800532781160495200, 259720721865457303418400, 259730832623553168505400, 259760645235651083862300, 259910500959553805096100,
  260210945224679454127800, 260291055085908320938700, 260320691327292348300100, 260391055085908320938700, 260410867905690630779600,
  260440867905690630779600, 260490973992886699305800, 260591055085908320938700, 260701014539397510122300, 260800408160876641361450,
  260821124400626376933200, 260850787671043378285900, 260870985771190264944200, 260890945224679454127800, 260930985771190264944200,
  260970827359179819963200, 261020594819202743941500, 261140894142117077528700, 261260620058114685008600, 261270744851707459713800,
  261310880165922840012800, 261430875909961398133200, 261440847141754152955000, 261490791180175359412900, 261590482890930459773800,
  261720856985761434280300, 261740945224679454127800, 261780594819202743941500, 261971124400626376933200, 262050856985761434280300,
  262220999124329527396400, 262280847141754152955000, 262301032771553189517800, 262481124400626376933200, 262741032771553189517800,
  262860899271446516283700, 262920844064588286279800, 263540916456472208949600, 263560605104941287912200, 263601193715344432927800]

def emitB20_2 : List Nat := [
  263680702449855859322600, 263711032771553189517800, 263761124400626376933200, 263770361305968287887370, 263950910394010027306200,
  264080806595243342138700, 264100899271446516283700, 264110973992886699305800, 264120922910324322706700, 264260722762324301694400,
  264320759334802247559450, 264340808700584261921800, 264351014539397510122300, 264471083854115566116900, 264490889263100660585500,
  264541124400626376933200, 264601124400626376933200, 264631055085908320938700, 264650714966170154723200, 264690864131657832494900,
  264721193715344432927800, 264810782627958015596600, 264831193715344432927800, 265000662394746528749100, 265171124400626376933200,
  265190929809611471401900, 265300910394010027306200, 265381124400626376933200, 265430973992886699305800, 265800875909961398133200,
  265970973992886699305800, 266110953925817153090700, 266120999124329527396400, 266310864131657832494900, 266351083854115566116900,
  266410929809611471401900, 266800722762324301694400, 266850844064588286279800, 267051193715344432927800, 267251055085908320938700,
  267810714966170154723200, 267900999124329527396400, 267921083854115566116900, 268200910394010027306200, 268400824827399021534200,
  268471083854115566116900, 268930713313239959602100, 269541193715344432927800, 269640810851204784018300, 269890953925817153090700,
  270041083854115566116900, 270101014539397510122300, 270360835363450587316900, 270541124400626376933200, 270830662394746528749100,
  270851124400626376933200, 271380871827761946107700, 271551083854115566116900, 271610864131657832494900, 271660910394010027306200,
  271690773246082493831200, 271780806595243342138700, 271930929809611471401900, 272111055085908320938700, 272310722762324301694400,
  272331193715344432927800, 272430806595243342138700, 274021014539397510122300, 274240999124329527396400, 274251014539397510122300,
  274260808700584261921800, 274310832623553168505400, 274420729276254518790500, 274500973992886699305800, 274541193715344432927800,
  274720832623553168505400, 274890808700584261921800, 274900937220408686774100, 274910744851707459713800, 274920759334802247559450,
  274930860494893415407300, 274940525755425848489500, 275061032771553189517800, 275110767447356728796200, 275120773246082493831200,
  275150764669400318088700, 275301014539397510122300, 275310867905690630779600, 275440867905690630779600, 275780759334802247559450,
  275841193715344432927800, 275851193715344432927800, 275950725502221720505800, 275990798590972574785100, 276021124400626376933200,
  276040515496138832248600, 276110973992886699305800, 276270502441062383610150, 276650607636722086341200, 276680810851204784018300,
  276830810851204784018300, 277000540773460606705200, 277040781001905928418600, 277140850316623984413200, 277190856985761434280300,
  277211083854115566116900, 277350963456835133523300, 277431193715344432927800, 277540929809611471401900, 277700999124329527396400,
  277771193715344432927800, 277840945224679454127800, 277850945224679454127800, 277940368757829432907960, 278090368757829432907960,
  278140985771190264944200, 278270829956728460289200, 278330732203292748801800, 278350813049095455895800, 278381083854115566116900,
  278441014539397510122300, 278610929809611471401900, 278671193715344432927800, 278730850316623984413200, 278740730242445609964200,
  278770985771190264944200, 278820715802995121774900, 278881193715344432927800, 279051193715344432927800, 279151083854115566116900,
  279220945224679454127800, 279270864131657832494900, 279451014539397510122300, 279460824827399021534200, 279630672766729148785700,
  279690554022378911313100, 279751193715344432927800, 279850789410217649472750, 279870798590972574785100, 280090963456835133523300,
  280100832623553168505400, 280140690671552293684200, 280230673865641306345200, 280400617825167045199700, 280701193715344432927800,
  281220715802995121774900, 281290973992886699305800, 281380985771190264944200, 281450686197962909545100, 281510802513043890113100,
  281550871827761946107700, 281650645235651083862300, 281801014539397510122300, 281871055085908320938700, 282010875909961398133200,
  282071193715344432927800, 282160847141754152955000, 282181032771553189517800, 282220789410217649472750, 282461193715344432927800,
  283100963456835133523300, 283220827359179819963200, 283310875909961398133200, 283631014539397510122300, 283690850316623984413200,
  283720999124329527396400, 283780815296381041101600, 283850637647181331375000, 283890884611099097096200, 284041032771553189517800,
  284140815296381041101600, 284150637647181331375000, 284171014539397510122300, 284310899271446516283700, 284481083854115566116900,
  284501083854115566116900, 284590916456472208949600, 285001193715344432927800, 285071193715344432927800, 285081193715344432927800,
  285161193715344432927800, 285260922910324322706700, 285501193715344432927800, 286080750633664548596400, 286110798590972574785100,
  286510884611099097096200, 287481014539397510122300, 287530945224679454127800, 287790748280614807577000, 287970945224679454127800,
  287980945224679454127800, 287990953925817153090700, 288101083854115566116900, 288141193715344432927800, 288181055085908320938700,
  288570844064588286279800, 288580557240268747736700, 288661055085908320938700, 288721083854115566116900, 288950844064588286279800,
  289030864131657832494900, 289090628466426406062700, 289541083854115566116900, 289610408160876641361450, 290170844064588286279800,
  290220785961600042355900, 290311055085908320938700, 290530910394010027306200, 290760999124329527396400, 290870922910324322706700,
  291050628466426406062700, 291340937220408686774100, 291380864131657832494900, 291411193715344432927800, 291510817595332863571600,
  291580953925817153090700, 291901083854115566116900, 292111055085908320938700, 292280973992886699305800, 292290742629393781242800,
  292330832623553168505400, 292380871827761946107700, 292731193715344432927800, 292750880165922840012800, 292790827359179819963200,
  292811055085908320938700, 292890546945471822492500, 293010973992886699305800, 293050844064588286279800, 293090973992886699305800,
  293590841079291971311700, 293690832623553168505400, 293780916456472208949600, 293990864131657832494900, 294200710087153737780000,
  294221083854115566116900, 294241124400626376933200, 294651124400626376933200, 294681083854115566116900, 294741193715344432927800,
  294821055085908320938700, 294831032771553189517800, 294861193715344432927800, 294920985771190264944200, 294940832623553168505400,
  295091083854115566116900, 295181124400626376933200, 295440710087153737780000, 295540910394010027306200, 295601124400626376933200,
  295631193715344432927800, 295751055085908320938700, 295770953925817153090700, 295790832623553168505400, 296090973992886699305800,
  296150789410217649472750, 296161124400626376933200, 296270777827036096960600, 296771032771553189517800, 296941124400626376933200,
  296990916456472208949600, 297020804533314621865000, 297300929809611471401900, 298240985771190264944200, 298720789410217649472750,
  299340860494893415407300, 299730860494893415407300, 299761083854115566116900, 299830425928994365106700, 299860593573856636812800,
  299920553689599902045700, 299930985771190264944200, 300000784280888210717700, 300010608208152212685100, 300020652998167286915900,
  300050603725609074678600, 300070714966170154723200, 300110973992886699305800, 300211032771553189517800, 300410884611099097096200,
  300530922910324322706700, 300590973992886699305800, 300640806595243342138700, 300700856985761434280300, 300950860494893415407300,
  300970910394010027306200, 301300766048732531322200, 301490929809611471401900, 301710847141754152955000, 301961083854115566116900,
  302460853595606266712200, 303021014539397510122300, 303131014539397510122300, 303310789410217649472750, 303320378265326917733600,
  303330824827399021534200, 303340686197962909545100, 303400894142117077528700, 303820822358137762497000, 304100875909961398133200,
  304230973992886699305800, 304270802513043890113100, 304280973992886699305800, 304330603999957669253700, 304421055085908320938700,
  304460884611099097096200, 304520716646881986361350, 304560456189766631952400, 304650999124329527396400, 304750738327655272873700,
  304950684955710909689400, 305040945224679454127800, 305240706195612112812650, 305260856985761434280300, 305651193715344432927800,
  305660841079291971311700, 306061124400626376933200, 306240802513043890113100, 306360985771190264944200, 306930693320713838381850,
  307071083854115566116900, 307191032771553189517800, 307720758044461763968600, 307751124400626376933200, 308050963456835133523300,
  308130777827036096960600, 308280662394746528749100, 308300899271446516283700, 308611014539397510122300, 308870945224679454127800,
  308890963456835133523300, 308960806595243342138700, 308970829956728460289200, 309060899271446516283700, 309521055085908320938700,
  310011014539397510122300, 310141032771553189517800, 310341055085908320938700, 310380494874026232968700, 310620835363450587316900,
  310700524506970182265000, 310770963456835133523300, 310961055085908320938700, 311051083854115566116900, 311171055085908320938700,
  311190945224679454127800, 311630973992886699305800, 311681193715344432927800, 311690953925817153090700, 311790792982025909680700,
  311810785961600042355900, 311850894142117077528700, 311920985771190264944200, 312061032771553189517800, 312150789410217649472750,
  312160899271446516283700, 312320720095499593478200, 312450824827399021534200, 312581032771553189517800, 312780785961600042355900,
  312810899271446516283700, 312830692651815023302200, 313090789410217649472750, 313190796686153077715600, 313370692651815023302200,
  313510922910324322706700, 313540695354682262094100, 313590985771190264944200, 313630973992886699305800, 313890985771190264944200,
  314010985771190264944200, 314060922910324322706700, 314340973992886699305800, 314350813049095455895800, 314490806595243342138700,
  314540871827761946107700, 314611055085908320938700, 314690899271446516283700, 314780871827761946107700, 314810894142117077528700,
  315050779401871793774500, 315080973992886699305800, 315280894142117077528700, 315320570864244073809500, 315481193715344432927800,
  315580973992886699305800, 315610827359179819963200, 315720829956728460289200, 316160679548988782661800, 316390702449855859322600,
  316490802513043890113100, 316611193715344432927800, 316800785961600042355900, 317770679548988782661800, 318401193715344432927800,
  318670985771190264944200, 318901014539397510122300, 318950899271446516283700, 319180609942299716333800, 319340798590972574785100]

def emitB20_3 : List Nat := [
  319580937220408686774100, 319750609942299716333800, 319950696734014475327700, 320000922910324322706700, 320050714136289873253600,
  320081055085908320938700, 320251014539397510122300, 320271014539397510122300, 320341124400626376933200, 320390727371435021721100,
  320430880165922840012800, 320470985771190264944200, 320480776276617443364100, 320680453775536099792400, 320800679548988782661800,
  320850744851707459713800, 320970777827036096960600, 320981124400626376933200, 321130547881516098448800, 321140652550739247423800,
  321470538037508817123560, 321560656187503664511300, 321600791180175359412900, 321780985771190264944200, 321910985771190264944200,
  322020727371435021721100, 322180758044461763968600, 322320841079291971311700, 322330999124329527396400, 323051124400626376933200,
  323170707734103996760600, 323210916456472208949600, 323501193715344432927800, 323811193715344432927800, 324060802513043890113100,
  324180714136289873253600, 324200802513043890113100, 324241055085908320938700, 324260922910324322706700, 324371124400626376933200,
  324391014539397510122300, 324401014539397510122300, 324470758044461763968600, 324520453775536099792400, 324540776276617443364100,
  324630538037508817123560, 324670679548988782661800, 324691193715344432927800, 324741124400626376933200, 324760777827036096960600,
  324770744851707459713800, 324790547881516098448800, 325010985771190264944200, 325080656187503664511300, 325110791180175359412900,
  325310999124329527396400, 325340841079291971311700, 325481193715344432927800, 325700916456472208949600, 325930985771190264944200,
  325990880165922840012800, 326181014539397510122300, 326220899271446516283700, 326290860494893415407300, 326450880165922840012800,
  326540827359179819963200, 326701032771553189517800, 326760706961899387369550, 326810636880894056818100, 327011193715344432927800,
  327281124400626376933200, 327450999124329527396400, 327611124400626376933200, 327630738327655272873700, 327690676100371175544900,
  327801193715344432927800, 327810761966533079296800, 327840753043419706502500, 328190929809611471401900, 328311083854115566116900,
  328441055085908320938700, 328520589689873305186400, 328580726432460986737200, 328620662394746528749100, 328740937220408686774100,
  328790589689873305186400, 328800937220408686774100, 328820789410217649472750, 328871055085908320938700, 328930953925817153090700,
  329050910394010027306200, 329290640772435681785400, 329331083854115566116900, 329370856985761434280300, 329580704680431610752400,
  329630880165922840012800, 329660875909961398133200, 329721083854115566116900, 329880791180175359412900, 329930844064588286279800,
  330080916456472208949600, 330110999124329527396400, 330140945224679454127800, 330161032771553189517800, 330210810851204784018300,
  330320999124329527396400, 330330999124329527396400, 330340567375518173765400, 330371193715344432927800, 330391055085908320938700,
  330410770304693973201900, 330670963456835133523300, 330730963456835133523300, 330800819948382604591000, 331020704680431610752400,
  331080847141754152955000, 331260770304693973201900, 331360910394010027306200, 331500867905690630779600, 331520953925817153090700,
  331840945224679454127800, 331920829956728460289200, 332130875909961398133200, 332141193715344432927800, 332250819948382604591000,
  332471055085908320938700, 332530829956728460289200, 332560985771190264944200, 332580380532865932208250, 332611193715344432927800,
  332670602095138172184300, 332870676100371175544900, 332880748280614807577000, 332890727371435021721100, 332900985771190264944200,
  332921083854115566116900, 332980889263100660585500, 333101193715344432927800, 333110985771190264944200, 333371032771553189517800,
  333910813049095455895800, 333920853595606266712200, 333930853595606266712200, 333950953925817153090700, 333990953925817153090700,
  334020953925817153090700, 334100785961600042355900, 334570779401871793774500, 334850963456835133523300, 334920808700584261921800,
  334991055085908320938700, 335091083854115566116900, 335100922910324322706700, 335210815296381041101600, 335370910394010027306200,
  335790904678168643311400, 335900985771190264944200, 336090678386184983149800, 336180871827761946107700, 336331055085908320938700,
  336351124400626376933200, 336471124400626376933200, 336741193715344432927800, 336940850316623984413200, 337070686824924210904600,
  337190910394010027306200, 337690875909961398133200, 337750916456472208949600, 338211055085908320938700, 338290817595332863571600,
  338360661414346519086900, 338530748280614807577000, 338651193715344432927800, 339311055085908320938700, 339450676666944929112600,
  339800963456835133523300, 339880779401871793774500, 340280922910324322706700, 340671193715344432927800, 340740815296381041101600,
  340831055085908320938700, 340910973992886699305800, 341520792982025909680700, 341800973992886699305800, 342551014539397510122300,
  342690953925817153090700, 342760813049095455895800, 342771124400626376933200, 342990847141754152955000, 343671055085908320938700,
  343820953925817153090700, 343890847141754152955000, 343941193715344432927800, 343951193715344432927800, 343990880165922840012800,
  344251124400626376933200, 344291055085908320938700, 344451193715344432927800, 345420929809611471401900, 345601124400626376933200,
  345861014539397510122300, 346310910394010027306200, 347010737280525286144200, 347390973992886699305800, 348210910394010027306200,
  348371124400626376933200, 348750929809611471401900, 348800592834025888668300, 348920737280525286144200, 349071124400626376933200,
  349090973992886699305800, 349150817595332863571600, 349201014539397510122300, 349621124400626376933200, 349660963456835133523300,
  349870835363450587316900, 350130819948382604591000, 350331055085908320938700, 350370819948382604591000, 350410899271446516283700,
  350640712496908895686100, 351990808700584261921800, 352010815296381041101600, 352110679548988782661800, 352150730242445609964200,
  352221124400626376933200, 352420698839355395110900, 352640738327655272873700, 352650679548988782661800, 352660738327655272873700,
  352680730242445609964200, 352701124400626376933200, 352990804533314621865000, 353020922910324322706700, 353200922910324322706700,
  353280835363450587316900, 353360609360902729791800, 353420871827761946107700, 353520749450218783896200, 353800953925817153090700,
  354131032771553189517800, 354330963456835133523300, 354410847141754152955000, 354631193715344432927800, 354651083854115566116900,
  354800937220408686774100, 354861083854115566116900, 354880770304693973201900, 354920929809611471401900, 354980394861046159158300,
  355041014539397510122300, 355191193715344432927800, 355240953925817153090700, 355270817595332863571600, 355420953925817153090700,
  355760758044461763968600, 356091083854115566116900, 356110973992886699305800, 356161193715344432927800, 356281124400626376933200,
  356570899271446516283700, 356720844064588286279800, 356861083854115566116900, 356920785961600042355900, 356961083854115566116900,
  357091083854115566116900, 357220652105304212485800, 357450609360902729791800, 357520871827761946107700, 357581083854115566116900,
  357600749450218783896200, 357620973992886699305800, 357700953925817153090700, 357770899271446516283700, 357801032771553189517800,
  357820844064588286279800, 357850953925817153090700, 357990963456835133523300, 358020770304693973201900, 358050847141754152955000,
  358211083854115566116900, 358230929809611471401900, 358250937220408686774100, 358280394861046159158300, 358320758044461763968600,
  358411014539397510122300, 358431193715344432927800, 358460953925817153090700, 358480817595332863571600, 358751193715344432927800,
  358781083854115566116900, 358841124400626376933200, 358950899271446516283700, 359200864131657832494900, 359370782627958015596600,
  359481055085908320938700, 359621083854115566116900, 359801014539397510122300, 359871032771553189517800, 359980867905690630779600,
  360000899271446516283700, 360010875909961398133200, 360070817595332863571600, 360080550260692554182500, 360100999124329527396400,
  360111193715344432927800, 360121083854115566116900, 360200999124329527396400, 360230929809611471401900, 360270810851204784018300,
  360390844064588286279800, 360401032771553189517800, 360420953925817153090700, 360511124400626376933200, 360640829956728460289200,
  360660985771190264944200, 360670791180175359412900, 360740999124329527396400, 360840760642010404294700, 360920999124329527396400,
  360931124400626376933200, 361060899271446516283700, 361260867905690630779600, 361270899271446516283700, 361300875909961398133200,
  361311083854115566116900, 361320985771190264944200, 361331055085908320938700, 361350550260692554182500, 361360999124329527396400,
  361380999124329527396400, 361390817595332863571600, 361410999124329527396400, 361431193715344432927800, 361490999124329527396400,
  361530810851204784018300, 361560953925817153090700, 361581032771553189517800, 361640844064588286279800, 361800829956728460289200,
  361820760642010404294700, 361871124400626376933200, 361900899271446516283700, 361961014539397510122300, 362030945224679454127800,
  362080631675257861212800, 362150894142117077528700, 362250945224679454127800, 362290822358137762497000, 362340867905690630779600,
  362551193715344432927800, 362911055085908320938700, 363000798590972574785100, 363050755512680965539650, 363281124400626376933200,
  363350963456835133523300, 363641014539397510122300, 363671083854115566116900, 363860999124329527396400, 364661193715344432927800,
  364901014539397510122300, 364931055085908320938700, 365230754270428965683950, 365240945224679454127800, 365300853595606266712200,
  365540953925817153090700, 365570649041607266296800, 365750661903345048506200, 366290860494893415407300, 366640782627958015596600,
  366701083854115566116900, 366810710883970702697700, 367031014539397510122300, 367100953925817153090700, 367160710883970702697700,
  367190661903345048506200, 367201014539397510122300, 367310860494893415407300, 367550782627958015596600, 367591083854115566116900,
  367631055085908320938700, 367660937220408686774100, 367770789410217649472750, 367810937220408686774100, 367830789410217649472750,
  367860587803024874748100, 367980963456835133523300, 368040657117742930742650, 368070602095138172184300, 368140789410217649472750,
  368160659004591361180900, 368170448881958343180300, 368240829956728460289200, 368250486898144394123600, 368271193715344432927800,
  368280770304693973201900, 368290719222131596602750, 368300580592695484613800, 368371055085908320938700, 368450864131657832494900]

def emitB20_4 : List Nat := [
  368550760642010404294700, 368610871827761946107700, 368640730242445609964200, 368650937220408686774100, 368660800532781160495200,
  368701083854115566116900, 368730945224679454127800, 368790781001905928418600, 368800953925817153090700, 368820953925817153090700,
  368890486898144394123600, 368900470514311266452000, 368931083854115566116900, 368940922910324322706700, 368960695354682262094100,
  368980781001905928418600, 368990580592695484613800, 369130841079291971311700, 369141193715344432927800, 369230819948382604591000,
  369240999124329527396400, 369380847141754152955000, 369390659004591361180900, 369420602095138172184300, 369470945224679454127800,
  369480963456835133523300, 369490719222131596602750, 369511193715344432927800, 369530729276254518790500, 369580953925817153090700,
  369600770304693973201900, 369631055085908320938700, 369650729276254518790500, 369690800532781160495200, 369740929809611471401900,
  369810860494893415407300, 369840945224679454127800, 369861193715344432927800, 369911083854115566116900, 369960829956728460289200,
  370070819948382604591000, 370270731218063104500700, 370340973992886699305800, 370701014539397510122300, 371290827359179819963200,
  371961193715344432927800, 372020937220408686774100, 372101032771553189517800, 372391124400626376933200, 372661124400626376933200,
  372761124400626376933200, 373240899271446516283700, 373250676666944929112600, 373261032771553189517800, 373270677236747040576400,
  373290700267951119858600, 373360829956728460289200, 373410832623553168505400, 373471083854115566116900, 375040985771190264944200,
  375280899271446516283700, 375550929809611471401900, 375590937220408686774100, 375610910394010027306200, 376041124400626376933200,
  376051032771553189517800, 376280953925817153090700, 376581083854115566116900, 377070953925817153090700, 377490875909961398133200,
  378320817595332863571600, 379410844064588286279800, 380151193715344432927800, 380240832623553168505400, 380250829956728460289200,
  380351083854115566116900, 380500953925817153090700, 380810844064588286279800, 381250899271446516283700, 381261083854115566116900,
  381340985771190264944200, 381420817595332863571600, 381440937220408686774100, 381471032771553189517800, 381481124400626376933200,
  381490953925817153090700, 381520910394010027306200, 381600929809611471401900, 381900875909961398133200, 382630473151826791891400,
  382710473151826791891400, 382721193715344432927800, 382810787671043378285900, 382830587104535422553000, 382900817595332863571600,
  382910810851204784018300, 383561193715344432927800, 383580973992886699305800, 383640867905690630779600, 383761193715344432927800,
  383810787671043378285900, 383820755512680965539650, 383830973992886699305800, 383860817595332863571600, 383880810851204784018300,
  383910824827399021534200, 383930850316623984413200, 383950662394746528749100, 384221193715344432927800, 384500672766729148785700,
  384510963456835133523300, 384520774749870230285250, 384540621030569674208100, 384700804533314621865000, 384801032771553189517800,
  385000700989975917207350, 385050894142117077528700, 385061124400626376933200, 385120774749870230285250, 385181083854115566116900,
  385190880165922840012800, 385200804533314621865000, 385250963456835133523300, 385420621030569674208100, 385430638419385940766000,
  385440782627958015596600, 385480747124532567469400, 385680638419385940766000, 385700894142117077528700, 385770782627958015596600,
  385900601022741835886700, 385931083854115566116900, 385960815296381041101600, 385970899271446516283700, 385980712496908895686100,
  385990700267951119858600, 386040633873148533090300, 386050953925817153090700, 386131032771553189517800, 386141055085908320938700,
  386170929809611471401900, 386200808700584261921800, 386220810851204784018300, 386260973992886699305800, 386270601022741835886700,
  386320844064588286279800, 386341124400626376933200, 386420810851204784018300, 386461083854115566116900, 386470922910324322706700,
  386510603725609074678600, 386541014539397510122300, 386861055085908320938700, 386951014539397510122300, 387120910394010027306200,
  387380770304693973201900, 387450728319309417175500, 387480728319309417175500, 387500673865641306345200, 387520850316623984413200,
  387540637263303700658400, 388600894142117077528700, 388870894142117077528700, 388990880165922840012800, 389140963456835133523300,
  389180829956728460289200, 389200875909961398133200, 389281032771553189517800, 389290910394010027306200, 389350817595332863571600,
  389360724580556210013400, 389480945224679454127800, 389570731218063104500700, 389691193715344432927800, 389911193715344432927800,
  390031193715344432927800, 390060985771190264944200, 390150802513043890113100, 390230945224679454127800, 390300963456835133523300,
  390340829956728460289200, 390350875909961398133200, 390370910394010027306200, 390380802513043890113100, 390441032771553189517800,
  390460724580556210013400, 390470817595332863571600, 390560945224679454127800, 390591193715344432927800, 390681193715344432927800,
  390721193715344432927800, 390800667446325542439200, 390871014539397510122300, 391080937220408686774100, 391180667446325542439200,
  391221014539397510122300, 391280937220408686774100, 391310875909961398133200, 391340875909961398133200, 391350686197962909545100,
  391380864131657832494900, 391511193715344432927800, 391540827359179819963200, 391650894142117077528700, 391780806595243342138700,
  391871055085908320938700, 391920953925817153090700, 392500794816939776500300, 392690864131657832494900, 392771193715344432927800,
  392780827359179819963200, 392810894142117077528700, 392860794816939776500300, 392951055085908320938700, 393180916456472208949600,
  393210904678168643311400, 393400813049095455895800, 393471193715344432927800, 393811193715344432927800, 394720867905690630779600,
  395090973992886699305800, 395111032771553189517800, 395140804533314621865000, 395221193715344432927800, 395320813049095455895800,
  395361193715344432927800, 395401193715344432927800, 395501193715344432927800, 395540860494893415407300, 395560973992886699305800,
  395641032771553189517800, 395920850316623984413200, 396360856985761434280300, 396400529076292948154900, 397190850316623984413200,
  397400916456472208949600, 397460904678168643311400, 397491193715344432927800, 397641193715344432927800, 397700889263100660585500,
  398540945224679454127800, 400600889263100660585500, 400920945224679454127800, 401800922910324322706700, 402131055085908320938700,
  402851124400626376933200, 403721193715344432927800, 404411193715344432927800, 404810810851204784018300, 404830922910324322706700,
  405011055085908320938700, 405171124400626376933200, 405481193715344432927800, 405601193715344432927800, 405720829956728460289200,
  406430711687187872424100, 406440711687187872424100, 406570718356325322291300, 406640722762324301694400, 406700844064588286279800,
  406800856985761434280300, 406870880165922840012800, 407181014539397510122300, 407230864131657832494900, 407361124400626376933200,
  407630910394010027306200, 407780810851204784018300, 407840810851204784018300, 407860999124329527396400, 408310999124329527396400,
  408451055085908320938700, 408571055085908320938700, 408601055085908320938700, 408631055085908320938700]

def emitB21_0 : List Nat := [
  201540000000000000000000]

def emitB22_0 : List Nat := [
  199680092069372263023770, 199690981652617429654000, 199710513796255709259600, 199750315957721094816500, 199770326486908253235080,
  199780832535218235617300, 199810460242688683252100, 199901010420824674832100, 199931015685198023374300, 199970713972851669843400,
  200040271877056259344750, 200101007889043876403000, 200571024140936826180600, 200610552949726824493800, 201080394978576395578030,
  201160427820813936787000, 201230863787117795489400, 201540934892928508137000, 201590327532968879975070, 201911238147553175807800,
  202001112871256326271000, 202370996110740310764700, 202470570313341710374500, 203130534907194821082900, 203361307462271231802100,
  204150837869816306146700, 204570864380591347470800, 204860864380591347470800, 204911007889043876403000, 207400327532968879975070,
  208090965689602870465600, 208111082333091371152600, 208400470871763511556600, 208410271877056259344750, 208430515635802622274800,
  208440590219813519317700, 208450497887158353309000, 208481376776989287796700, 209600319315073383957460, 209611215833198044386700,
  209860873733197148553100, 209980637204828427592200, 210151266915760420985700, 211521024140936826180600, 213130359635664625573600,
  213150440222225659940200, 213171136987462007959600, 213220451216938949692000, 213261307462271231802100, 214000638378043489945850,
  214411182185974382265500, 214520602363326524997700, 214881307462271231802100, 215161120282053541643000, 216080737752922581261750,
  222350415143122163196100, 223301376776989287796700, 223621376776989287796700, 224671376776989287796700, 225331376776989287796700,
  225801376776989287796700, 227640962463516648643500, 227771047193302687363700, 228100332070883011604600, 228230389727051616882000,
  228251376776989287796700, 229090608023112667633800, 230020942396447102428400, 235451105971969177575800, 235651105971969177575800,
  235670906728952708555100, 235690538616735576807850, 236181015685198023374300, 236521015685198023374300, 240380443317855856392700,
  240491021242183138855400, 240661168832835119813200, 241790703080293487611200, 241800892358280641937500, 241900319315073383957460,
  242180959338262298233000, 243190949110377386191200, 244560476605398611679100, 244940873081729046433900, 250980991762229116790900,
  251041033378268839282100, 252091197601042364991200, 253021376776989287796700, 253461376776989287796700, 254201307462271231802100,
  254991376776989287796700, 256680904927102158287300, 258850904927102158287300, 259680484978918290467700, 259720709194667124311900,
  259760484978918290467700, 260800644196239028219400, 260850878416327116963000, 263770816934793387959200, 264651376776989287796700,
  264970854741406779964300, 265501099518117063818700, 265781197601042364991200, 267811376776989287796700, 269970854741406779964300,
  276041157054531554174800, 276270548908772990706150, 278611007889043876403000, 280230844475991373956000, 282070711361737269474850,
  285951030203399007824100, 288571054889406800976700, 289610644196239028219400, 292550645055748451812900, 295901197601042364991200,
  300020832969058395477200, 303281027126233141148700, 303340507243051607825550, 304141093455654882175100, 305260570313341710374500,
  314350896374884814471000, 315320271070849359975500, 319950766521129826439800, 320130941106106618837600, 320660772513705919558550,
  320681376776989287796700, 320850625953111819930450, 321140713972851669843400, 324350941106106618837600, 324521376776989287796700,
  324560772513705919558550, 324770625953111819930450, 326540513796255709259600, 329221376776989287796700, 333910832969058395477200,
  335090610061163755882000, 335210761079090729241200, 337751307462271231802100, 338360315957721094816500, 343491376776989287796700,
  350411168832835119813200, 352110915264937603670800, 352650915264937603670800, 353770412707669728584100, 355760682851594683645900,
  357680412707669728584100, 358320682851594683645900, 360191005419782617366000, 361441005419782617366000, 366351307462271231802100,
  366491266915760420985700, 367421307462271231802100, 367441266915760420985700, 367630895558553750555000, 369130737752922581261750,
  373241168832835119813200, 386170602363326524997700, 386460789003411109832800, 388671376776989287796700, 388891376776989287796700,
  391920534907194821082900, 393180465868735297601160, 393401067672743951965200, 395321067672743951965200, 406701054889406800976700]

def emitB24_0 : List Nat := [
  199680240383096039492640, 199750582288595945708800, 199770109717378446416650, 199780792972647532503850, 201080619512541993693200,
  201160515713775308525700, 208430718251207349481700, 208450851751314022715700, 209600718251207349481700, 213130491746489981983700,
  213150654343211420514800, 213220615665913910913600, 214520943380387210131300, 217380539956323394891800, 222350197446497688101720,
  228100657160299117184450, 229091012695105266125900, 235690874065669154136800, 241900718251207349481700, 251041012695105266125900,
  253420833519158343320200, 274910782436595966721300, 274920508352593574201100, 303340735436233042147700, 315321012695105266125900,
  330980833519158343320200, 332400833519158343320200, 338360582288595945708800, 368250107186196595636640, 368890107186196595636640,
  370270296455355530554000, 384700792972647532503850, 385200792972647532503850, 386170943380387210131300, 386460530666948705622100]

def emitB25_0 : List Nat := [
  199680599679419279897800, 199690980029961601653100, 199710986121978977837000, 199750797712395055509700, 199760805326058933620600,
  199770707413241150464300, 199780655023671623569200, 199790697420373972917850, 199810544165292158551000, 199821141685499621949500,
  199841515452461450286300, 199850995051792742606800, 199870629020189199142400, 199900525949775288460200, 199920797980030466648700,
  199930945408104111217700, 199940572212127483271500, 199950924372797046233600, 199960626019720474652350, 199970860344427945945800,
  199980876680389837202700, 200040759418376671690300, 200050979793833983085000, 200061024555297418310800, 200070996993601328316900,
  200100609692757979187900, 200110839063970594042800, 200130516325514858320200, 200161049581366158674300, 200181108549786026505200,
  200200972298840416860300, 200241093501690932675700, 200250992074576909239700, 200260980503896138042700, 200270507462878754970000,
  200291180462052722825700, 200300797331297033292700, 200351193564878963466200, 200410745061440488655200, 200430994777444148031600,
  200440816703436750187200, 200480783830871843276360, 200501098785939070113600, 200520969281370104639000, 200541083703650096655300,
  200560864426627397971400, 200570816888279686365400, 200610902221175880750000, 200621051495300179743900, 200640756316756780431200,
  200650785034497206471100, 200700653739559447402650, 200800855806127361164000, 200810958047124652144600, 200830800617887060279500,
  200941089891190468464000, 200980958047124652144600, 201021446137743394291800, 201050889112635191124000, 201070547721646682457400,
  201080730793463921167700, 201111063818564222138700, 201130813657054322265000, 201140844156841382579300, 201160779856407373640300,
  201170970563438947545300, 201201241368459057766100, 201211241368459057766100, 201220783499086535596940, 201260783499086535596940,
  201291047239338737864300, 201301474905950639470000, 201320541050183661776200, 201350522167245333683100, 201371344977652226443800,
  201391187737988151068600, 201400858154301550635700, 201411010146860452265500, 201420900498851282438700, 201460708863106753858900,
  201540435209596842769300, 201591390176164600749500, 201601048169578004095600, 201610969706902661652800, 201641405591232583475400,
  201660900072865547743000, 201670947094484716418200, 201701040525408454101500, 201710877864836848454800, 201741071777308013973400,
  201790770125247196480500, 201801307508307282302700, 201811030249435058324500, 201820958427353247118500, 201841138176367640822500,
  201850880538562312306500, 201950608476902334055400, 201961003056063509960400, 201971121294280683317300, 202020761576355149863000,
  202081208647167936924700, 202101115632391283366500, 202131336276514527480900, 202141285193952150881800, 202150520482163816977200,
  202190719245730574919600, 202210810310198570831400, 202231101138988811133000, 202250555861576613297300, 202331307508307282302700,
  202341079142598971450000, 202371515452461450286300, 202381144095254779855600, 202391006384661273307100, 202401328272243760127200,
  202411018471131492686300, 202470734012498069837600, 202480707971988529938740, 202490858925964446750200, 202500609564687173465100,
  202540977462726096240400, 202551033021889859810100, 202560635894239754643700, 202581354508670206876400, 202600820658754588789400,
  202611515452461450286300, 202620927120222601458400, 202660936916215285423900, 202710903422719555191200, 202720732748309466677200,
  202761038808628091865000, 202801213409972835850000, 202851193564878963466200, 202910969920349914516100, 202941376823025338297200,
  203010727107826036512300, 203020735108955755069500, 203030722918635216469900, 203041093501690932675700, 203070617353451575041100,
  203080991277759944322000, 203090980980087514067000, 203130827877613165581200, 203141150386637320912400, 203150822500784373921300,
  203160545695483261587600, 203171154360670185864000, 203181285193952150881800, 203201248037596507633400, 203230953231379354047400,
  203251320861446544755000, 203291101138988811133000, 203390944907686052760100, 203481158499191802149200, 203510796724545077040900,
  203560924102160886459200, 203580688604922552026500, 203611423823388262870700, 203630874024632095210300, 203650842589600141816100,
  203671158499191802149200, 203751376823025338297200, 203790777832942825117350, 203810791746558837812600, 203841184033860983033800,
  203871515452461450286300, 203900970778724283655200, 203910945241019694735800, 203921018471131492686300, 203941474905950639470000,
  203981344977652226443800, 203991161356529046555000, 204050961916079147162500, 204061515452461450286300, 204150994503846166144200,
  204191078507676203584300, 204201002462589957978900, 204261235116423359632900, 204311271217757913365900, 204331423823388262870700,
  204390970994474097657400, 204400952152232190770900, 204421172053741001771600, 204450633426824859654200, 204481184033860983033800,
  204490560464528453468300, 204620883735992775557800, 204631248037596507633400, 204650933295910419027800, 204671244647441340065300,
  204721054436688700373300, 204801515452461450286300, 204890770125247196480500, 204910609692757979187900, 204930971427375206615900,
  204980947948460871231500, 205050941634071312933000, 205061584767179506280900, 205110837630870687571200, 205131068861649584828000,
  205181238193589226308200, 205211271217757913365900, 205230927120222601458400, 205251040525408454101500, 205380642788119890441840,
  205400974511320044924000, 205420839006250534720300, 205471365044721772658900, 205510799795803745793900, 205521295730003716664300,
  205531033021889859810100, 205590829438518946238900, 205700839237330937951900, 205721007001947184015100, 205811000123302000508500,
  205960945241019694735800, 205970970778724283655200, 205980969493910035870400, 205991275662934170449200, 206050936916215285423900,
  206071175332723284070700, 206081082379127421653200, 206251054935442851477100, 206320977462726096240400, 206330994230994700823900,
  206431251546728488760400, 206471390176164600749500, 206480784598181696367300, 206491320861446544755000, 206520933444168415050200,
  206530953231379354047400, 206581238193589226308200, 206590635894239754643700, 206610642788119890441840, 206630820658754588789400,
  206670923697575034505000, 206700839006250534720300, 206811320861446544755000, 206871114719142927039300, 206891018471131492686300,
  206930900072865547743000, 206981112028397635046800, 207110897450796085029100, 207181255183492905848000, 207210963306369664061700,
  207250952510655513552400, 207290520482163816977200, 207311208647167936924700, 207360761576355149863000, 207401390176164600749500,
  207521390176164600749500, 207540872238870355209700, 207571474905950639470000, 207671175332723284070700, 207780707971988529938740,
  207860784598181696367300, 207941320861446544755000, 207990676108223052280100, 208001354508670206876400, 208011376823025338297200,
  208030744948739022877300, 208040728914474015359400, 208050888637574915264100, 208061154360670185864000, 208071015393965626010900,
  208080636982654807366300, 208090649983290990099200, 208111056955713583229000, 208121266961796471486300, 208130938152707082519000,
  208171266961796471486300, 208180676108223052280100, 208200974064890732055500, 208260762297223309557400, 208281153018368152649800,
  208370940832142396271000, 208390590055020550661900, 208400501535247915821450, 208410759418376671690300, 208430746652744810984700,
  208440426894922630253200, 208450935846686373749000, 208481013724477768793800, 208490703408459059276850, 208510577334502284175950,
  208520799562158779691900, 208530700074329496379000, 208541144095254779855600, 208551211000217677944000, 208560771115354294751700,
  208571515452461450286300, 208590868217832000196300, 208601262879597019460800, 208610955610265550448900, 208641301445845100659100,
  208690590055020550661900, 208721446137743394291800, 208741191584616233848200, 208761191584616233848200, 208771135903542533066900,
  208821061656317820822000, 208851474905950639470000, 208871211000217677944000, 208890919223144469516000, 208910554940940562670600,
  208920559868147559119800, 208960871198444803466500, 209000974735284304274400, 209011089184473746154900, 209061229232373357339500,
  209080943914300400331000, 209120739044094481925400, 209140855669701691982700, 209150717741422791973400, 209171474905950639470000,
  209180879495074583048500, 209190804505373162013600, 209230957102830572116400, 209280668704701533255800, 209340835268556111227600,
  209370936609466578637800, 209401376823025338297200, 209410957102830572116400, 209430965530930558793600, 209571001872617745260100,
  209600850554006447808700, 209611011109949758361600, 209640916556319761300000, 209730992877794078966100, 209751064917476379698300,
  209771064917476379698300, 209791022005068137217200, 209821015393965626010900, 209841084372548911734800, 209851059539836701617900,
  209860735415673100114800, 209871285193952150881800, 209890823731417674997000, 209911180462052722825700, 209920846120094623291400,
  209931251546728488760400, 209951275662934170449200, 209980603575143605217100, 209990974064890732055500, 210020976317238198763700,
  210051376823025338297200, 210090864129450359055600, 210101141685499621949500, 210150860273024872580200, 210161189642807648138100,
  210180915063754739632400, 210190602160538949526550, 210210845072319244179400, 210241474905950639470000, 210280985121970644378700,
  210290874434973253669600, 210321133681228854595900, 210330579421371595038500, 210341474905950639470000, 210350874434973253669600,
  210381146564516038892700, 210401076626743007834500, 210460616951768991392600, 210471164297917567184200, 210480758305096565159250,
  210491041832616610836800, 210500831130785665829700, 210510971862158500226200, 210531141685499621949500, 210580984131863546107500,
  210591128332360359497200, 210661328272243760127200, 210690658540333022626600, 210701041832616610836800, 210731003354126323774200,
  210761295730003716664300, 210781051979562627322700, 210830915063754739632400, 210851099564153114319000, 210931099564153114319000,
  210950753897987822391100, 210970947264697523471200, 210980972080261094862400, 211030837630870687571200, 211061172053741001771600,
  211090602160538949526550, 211171584767179506280900, 211231141685499621949500, 211270753897987822391100, 211281204100930529248900,
  211291189642807648138100, 211301141685499621949500, 211331003354126323774200, 211370984131863546107500, 211470653171094122294200,
  211491285193952150881800, 211500671345681347611700, 211510657360573220608100, 211520833505425038829800, 211531241368459057766100]

def emitB25_1 : List Nat := [
  211551010787888288357400, 211600588964870987866600, 211610882213348042428800, 211631097247447186165700, 211691180462052722825700,
  211700936151100611872000, 211710727239839257004700, 211830749511742558821800, 211850936151100611872000, 211871376823025338297200,
  211910900819535683396600, 211950957668336320451000, 212021092041810990560400, 212050588964870987866600, 212081262879597019460800,
  212091241368459057766100, 212130865925905856585500, 212140727239839257004700, 212151232131127044664600, 212180749511742558821800,
  212201007001947184015100, 212350957668336320451000, 212371180462052722825700, 212401285193952150881800, 212421139332449880930100,
  212431515452461450286300, 212460977924620681869800, 212471213409972835850000, 212481515452461450286300, 212530792396146109357100,
  212560856353698886760400, 212611307508307282302700, 212691113814159375047400, 212700627005289636370200, 212710747112093344903700,
  212731376823025338297200, 212771251546728488760400, 212801080424667814356200, 212831028315138774011600, 212901104365075032955300,
  212950754590203194564250, 213051170453706867127500, 213060661694073343889100, 213070607110893610034700, 213101114719142927039300,
  213111241368459057766100, 213120661694073343889100, 213130894492905790421500, 213150889973472644784000, 213190901356305624897000,
  213200949156413436691800, 213220751825501112349000, 213260765289015661945000, 213270682161490319412100, 213290990225118645623300,
  213301275662934170449200, 213311206348216114454700, 213320682161490319412100, 213330642262335059351750, 213340920128128021508000,
  213350793744808796546400, 213380749393915279960700, 213401119371144490528500, 213440991277759944322000, 213450912504200020736000,
  213461013393898955343900, 213481003354126323774200, 213501446137743394291800, 213510958809033099788600, 213550773334708590746900,
  213591474905950639470000, 213600761257629780445100, 213610672856990352089700, 213631215879234094887300, 213650895808048670834200,
  213670903973685136288200, 213691354508670206876400, 213780796234255578961750, 213801105188124946606700, 213810970563438947545300,
  213820601133951771408900, 213851154360670185864000, 213870675307903163093900, 213881258957525704132700, 213970960350489439907300,
  214001344977652226443800, 214020871357807386994300, 214070540020434622853100, 214100989963680588216200, 214141405591232583475400,
  214160904527703173849900, 214171344977652226443800, 214211258957525704132700, 214261154360670185864000, 214350902874772978728800,
  214390710398068451978750, 214420733027862364390400, 214430733027862364390400, 214480909423387646503000, 214491170453706867127500,
  214501140502053857249200, 214510894091701641425600, 214520665896372321373950, 214530784531224881010000, 214570639839326587377500,
  214600884642617299333300, 214620993687515102228100, 214630843671991947917200, 214640748877118264116400, 214651057467223649906200,
  214670950907771685962500, 214721139332449880930100, 214740924372797046233600, 214750689403175792967800, 214760679996800656418200,
  214771009509915623717500, 214781104365075032955300, 214811280314935733938600, 214821354508670206876400, 214830930375994949801600,
  214841153018368152649800, 214851446137743394291800, 214870721572236634838200, 214880798787261450069900, 214900761125126779741700,
  214910825480150721799000, 214940807029819240494600, 214950867524721793796300, 214960697728972899267050, 214971405591232583475400,
  215071014056153031393300, 215101248037596507633400, 215120679949747367701550, 215130859561784320999500, 215140906774988759055700,
  215160648796359143580200, 215170620502966102490100, 215180642804341806285700, 215190921172523937616300, 215201061122983223285800,
  215210921698840942043600, 215251313962159396059800, 215261584767179506280900, 215271145322264039037000, 215310810050682854247500,
  215331313962159396059800, 215341027932729130171200, 215361262879597019460800, 215371084372548911734800, 215421178722878451638900,
  215431405591232583475400, 215441108549786026505200, 215451584767179506280900, 215470769807005932665300, 215480897969738609251600,
  215511062731596998448300, 215531474905950639470000, 215541208647167936924700, 215551057981363599948000, 215561057981363599948000,
  215571313962159396059800, 215581189642807648138100, 215600868682588839851000, 215611071777308013973400, 215631405591232583475400,
  215641162816408988670200, 215701313962159396059800, 215740966352290412532400, 215761235116423359632900, 215781031033752804427200,
  215791175332723284070700, 215841189642807648138100, 215871320861446544755000, 215920845564022754821700, 216021101138988811133000,
  216080695602268241275200, 216190856628613149252500, 216211232131127044664600, 216280907116480269062500, 216290711681989154357600,
  216341336276514527480900, 216381365044721772658900, 216440728512290192577350, 216471213409972835850000, 216501080424667814356200,
  216521390176164600749500, 216540913350126515333600, 216611474905950639470000, 216711515452461450286300, 216721074780536723861000,
  216741199752419335275000, 216751255183492905848000, 216761106854830195128000, 216831275662934170449200, 216881012408669311042800,
  216930954322299264082700, 216961093501690932675700, 216970643227037932318200, 217001328272243760127200, 217041020931712572906300,
  217081295730003716664300, 217090926842058305270700, 217130948120134733137100, 217141423823388262870700, 217161295730003716664300,
  217290845564022754821700, 217330784967247708307800, 217360979323244879343800, 217410941795231702367100, 217421072967798264605400,
  217460742676926396485700, 217540958047124652144600, 217561365044721772658900, 217611515452461450286300, 217671050533754309799800,
  217761007312024951840000, 217941079781578781327000, 217991390176164600749500, 218060927959388365083300, 218070890938731104585000,
  218090943585352735291100, 218220995879383672992800, 218231223675388241858500, 218281155721235391441800, 218300549266286265983100,
  218341344977652226443800, 218390556448148564195600, 218521365044721772658900, 218540948120134733137100, 218551062731596998448300,
  218600915558805255618000, 218611584767179506280900, 218621474905950639470000, 218631515452461450286300, 218701187737988151068600,
  218801280314935733938600, 218841266961796471486300, 218881313962159396059800, 218920925189128110149600, 218950881416531077511100,
  218970931388295712946500, 218980987640995527234500, 219121515452461450286300, 219160854114039612330300, 219171262879597019460800,
  219271280314935733938600, 219300996993601328316900, 219320969281370104639000, 219340642262335059351750, 219430967597119765189400,
  219451213409972835850000, 219491037540112139133400, 219571033424304889782700, 219611365044721772658900, 219661145322264039037000,
  219710894191851875134500, 219801093501690932675700, 219811390176164600749500, 219871474905950639470000, 219931079781578781327000,
  220031290323281589636800, 220061295730003716664300, 220221405591232583475400, 220251016409202772412700, 220281193564878963466200,
  220291037540112139133400, 220381515452461450286300, 220391320861446544755000, 220401295730003716664300, 220551189642807648138100,
  220631280314935733938600, 220661584767179506280900, 220680806820482760448400, 220941320861446544755000, 220991295730003716664300,
  221091474905950639470000, 221121423823388262870700, 221161320861446544755000, 221200754689483421135400, 221211024186972876681200,
  221220940195197567723000, 221241168878871170313600, 221271290323281589636800, 221291170453706867127500, 221320967597119765189400,
  221341238193589226308200, 221361108549786026505200, 221391173679793088949600, 221581423823388262870700, 221591446137743394291800,
  221960979793833983085000, 222041255183492905848000, 222161320861446544755000, 222181101935805776050800, 222271187737988151068600,
  222340997555400558739300, 222350772589437590173400, 222380770881504436648250, 222391365044721772658900, 222400652767016887710750,
  222420750411796005769200, 222530835714239300209600, 222560917437382729515400, 222600878205843146509000, 222651307508307282302700,
  222660851334244476227100, 222690462691846781722600, 222700698646345785462900, 222780782773010738544350, 222800931388295712946500,
  222830462691846781722600, 222850878205843146509000, 222900835714239300209600, 222910782773010738544350, 222940698646345785462900,
  222960750411796005769200, 223001344977652226443800, 223030590352226080779100, 223070780208351425928000, 223121128332360359497200,
  223131144095254779855600, 223141002758886471044700, 223171211000217677944000, 223200438850582093894200, 223300752966151751593800,
  223430877355497886544600, 223461091319786193211700, 223501147822394259578600, 223510894996685193417300, 223520883826286235417200,
  223530960739594989204000, 223590974287856264782300, 223621044499441319052800, 223631149096296837321600, 223650996713880866210800,
  223661584767179506280900, 223670933295910419027800, 223681155721235391441800, 223690942280277115742100, 223721405591232583475400,
  223740761682823086457400, 223761295730003716664300, 223771211000217677944000, 223781474905950639470000, 223831184033860983033800,
  223911423823388262870700, 224020961719034748432700, 224030911546108859560200, 224041095732266684105500, 224110886666605434108000,
  224181232131127044664600, 224271208647167936924700, 224381142883118726621000, 224431131507230190955200, 224451180462052722825700,
  224661474905950639470000, 224671255183492905848000, 224751515452461450286300, 224780588224284098649700, 224951108549786026505200,
  224961376823025338297200, 224971180462052722825700, 225190880189521818329700, 225211005771162416555400, 225220457481988862963500,
  225300911308013508986100, 225331044499441319052800, 225341024186972876681200, 225351390176164600749500, 225451238193589226308200,
  225611025668481455195100, 225640994230994700823900, 225701285193952150881800, 225751165801705303638300, 225761584767179506280900,
  225770650964206194573600, 225800752966151751593800, 225811515452461450286300, 226020974287856264782300, 226041446137743394291800,
  226090839063970594042800, 226120998404061946471000, 226151003354126323774200, 226161187737988151068600, 226221105188124946606700,
  226261584767179506280900, 226351132588321801376800, 226450926150014020813300, 226491238193589226308200, 226541290323281589636800,
  226590864650091178113000, 226661131507230190955200, 226741423823388262870700, 226750808592681040389600, 226810860130371496034700,
  226841155721235391441800, 226860674669996014199000, 226960902984122360865800, 226971167328452516717000, 227070933295910419027800]

def emitB25_2 : List Nat := [
  227181142883118726621000, 227210840342314556610300, 227271149096296837321600, 227390675307903163093900, 227411081071919264917900,
  227441232131127044664600, 227500894996685193417300, 227511095732266684105500, 227561131507230190955200, 227610996713880866210800,
  227630776465187589147900, 227641584767179506280900, 227660971862158500226200, 227670971862158500226200, 227680649600548699619000,
  227711081723387367037300, 227741258957525704132700, 227781258957525704132700, 227810855806127361164000, 227880788282090761549500,
  227910994230994700823900, 227970839584955853487900, 227990954688600039956400, 228041405591232583475400, 228051037961165392767700,
  228060587200312556667300, 228091213409972835850000, 228100782117485611739600, 228120845133650126200000, 228180899437270187673000,
  228210858925964446750200, 228230434365590272252400, 228250575125250662071000, 228260609262624788695700, 228270700016816913916700,
  228311126270431639223600, 228330853511829696021000, 228360673516478343538900, 228391313962159396059800, 228401082379127421653200,
  228410929231490325214300, 228460929231490325214300, 228550838201648492875200, 228561446137743394291800, 228571164297917567184200,
  228591474905950639470000, 228621165801705303638300, 228630904973138208787700, 228650896934532677148300, 228681218411014893316100,
  228700851726658321840600, 228710808635261411482100, 228801009192958147589700, 228821033021889859810100, 228850937532550056190800,
  228870937532550056190800, 228941474905950639470000, 228990597613941376823200, 229000742215539221847500, 229020786150693473008100,
  229040965530930558793600, 229090729356824962647400, 229140979088778183418500, 229151028315138774011600, 229161170453706867127500,
  229181187737988151068600, 229190758022283675796000, 229200797980030466648700, 229251584767179506280900, 229301365044721772658900,
  229311007312024951840000, 229340846741600663634800, 229370998404061946471000, 229411187737988151068600, 229421129379490346226700,
  229491405591232583475400, 229581201903039857371300, 229591238193589226308200, 229690832311056877744800, 229710774055432431241800,
  229821376823025338297200, 229860976089706815050200, 229870981698653480154500, 229920770531751821297500, 229930701013574895524200,
  229950878376783359074000, 229960676561944338815650, 230001301445845100659100, 230041185868774849853400, 230111515452461450286300,
  230131069438020056503000, 230140965530930558793600, 230160935543196004233700, 230351081071919264917900, 230390876764529514021800,
  230410846679275949869100, 230430890358458683328100, 230441280314935733938600, 230471164297917567184200, 230481290323281589636800,
  230571474905950639470000, 230640796384858017065600, 230671005161404429743600, 230771344977652226443800, 230891005161404429743600,
  231001133681228854595900, 231051280314935733938600, 231100854248357966977000, 231131515452461450286300, 231141086406517335447200,
  231251474905950639470000, 231300788490786489469400, 231381211000217677944000, 231420758022283675796000, 231560899966652048644500,
  231571320861446544755000, 231580960156502958124500, 231621313962159396059800, 231860744454355993454350, 231941197647078415491800,
  232190848820415680718700, 232290797980030466648700, 232331112917292376771300, 232340892897657604233800, 232440922360656726291400,
  232521137033498058460200, 232541238193589226308200, 232561446137743394291800, 232651110273966669955700, 232701056446806632482000,
  232731059539836701617900, 233051446137743394291800, 233071320861446544755000, 233081164297917567184200, 233321103548743969039000,
  233381137033498058460200, 233440899966652048644500, 233511103548743969039000, 233520960156502958124500, 233601515452461450286300,
  233721290323281589636800, 233760703200497011659100, 233771138176367640822500, 233800901571822949695300, 233810940832142396271000,
  233830742040331117455800, 233840779473875826524050, 233850917690547421693400, 233881376823025338297200, 233890972517898554842300,
  233911021646001324144300, 233940930232213472838900, 233950622112421844655900, 233960930519983455600500, 233980551744699914297600,
  234010669411343718561000, 234021390176164600749500, 234030917690547421693400, 234041295730003716664300, 234131285193952150881800,
  234160551744699914297600, 234181251546728488760400, 234211215879234094887300, 234231390176164600749500, 234251109408160395644300,
  234290958809033099788600, 234310851464878067632600, 234320934788475440695300, 234330864277928485813600, 234351027932729130171200,
  234361071777308013973400, 234390729125789049329000, 234470716989153899862200, 234480613292636712355800, 234500735477129621561500,
  234521142883118726621000, 234530727959539333200100, 234540598996643518180800, 234561059017642303502700, 234571020931712572906300,
  234580650823484975221600, 234590822696670822454700, 234600972298840416860300, 234620938620361870909100, 234660811705772899906800,
  234670744096333682184200, 234700744096333682184200, 234720913958771120973900, 234750960739594989204000, 234760967180452495704700,
  234771266961796471486300, 234780615342488867189900, 234810828811229905510800, 234850897658050045226300, 234860927120222601458400,
  234870890358458683328100, 234920947435200548579600, 234931474905950639470000, 234940757740268362618400, 234951584767179506280900,
  235000801684879992749300, 235060832419048248931000, 235070995602758323703800, 235171025668481455195100, 235191131507230190955200,
  235210909540141892106600, 235221025668481455195100, 235260598996643518180800, 235271109408160395644300, 235281002167168768235900,
  235291020931712572906300, 235310919223144469516000, 235320897658050045226300, 235361213409972835850000, 235411059017642303502700,
  235420727959539333200100, 235441168878871170313600, 235450664920159565711300, 235460891035771383912800, 235471328272243760127200,
  235480685885129328473700, 235510855806127361164000, 235530799601061717354300, 235560789716936025395700, 235580676312142914492600,
  235590676312142914492600, 235600629020189199142400, 235611258957525704132700, 235620920779596123627200, 235631328272243760127200,
  235650664920159565711300, 235660685885129328473700, 235670521978067231618100, 235690721786445927743700, 235721301445845100659100,
  235740943749691309664100, 235760926150014020813300, 235780831934002835556200, 235811320861446544755000, 235881232131127044664600,
  235911165801705303638300, 236011129379490346226700, 236080810396853688905400, 236100860702210080734200, 236120962311336578744800,
  236140820084040363232700, 236150892011388878449200, 236160689675003026554700, 236170912986710003911700, 236180816611143250327100,
  236210704229665615313900, 236221390176164600749500, 236240964311403249411800, 236251405591232583475400, 236261390176164600749500,
  236270815419015422763300, 236290810396853688905400, 236301365044721772658900, 236310887132372461506000, 236370929089343890476500,
  236441405591232583475400, 236460873127765096934300, 236481061656317820822000, 236520816611143250327100, 236531003056063509960400,
  236600873127765096934300, 236630971644530557966800, 236650587863061178724160, 236810925737074686612300, 236821515452461450286300,
  237001100348470860421700, 237030921303843720112200, 237070853511829696021000, 237131446137743394291800, 237210766204290391520100,
  237241191584616233848200, 237250997555400558739300, 237291405591232583475400, 237310930953197129513800, 237360991277759944322000,
  237770900926659421546500, 237841295730003716664300, 237891015057830855740300, 237920873697567208398000, 237980853511829696021000,
  238031251546728488760400, 238050900926659421546500, 238151238193589226308200, 238301077249797982898200, 238310921303843720112200,
  238461584767179506280900, 238491178722878451638900, 238691197647078415491800, 238841344977652226443800, 239131474905950639470000,
  239940997555400558739300, 240051127296081655942600, 240201127296081655942600, 240291040959248613961400, 240300909540141892106600,
  240330827260009555524800, 240341111147334666831200, 240370488327382104258200, 240380820084040363232700, 240391048169578004095600,
  240400807660470899740300, 240411238193589226308200, 240431017434852789131700, 240460708471287429608100, 240471301445845100659100,
  240481301445845100659100, 240491018471131492686300, 240501307508307282302700, 240520937997306895845500, 240551033021889859810100,
  240621390176164600749500, 240651036703287172081600, 240660441806272376688800, 240670756443035367738400, 240691248037596507633400,
  240701004857914060228200, 240720706045146643351100, 240760988666645543953500, 240791474905950639470000, 240800911546108859560200,
  240861009509915623717500, 240881009509915623717500, 240911145322264039037000, 240930734640475419683000, 241011248037596507633400,
  241020944244333703196800, 241070706045146643351100, 241090893592449481113400, 241100972737437611185700, 241150911546108859560200,
  241180944244333703196800, 241191019167998424295600, 241200753210531149853100, 241250928664112916623600, 241301229232373357339500,
  241311474905950639470000, 241330761390308584571100, 241401142883118726621000, 241481423823388262870700, 241490907917858341418000,
  241631036703287172081600, 241710972737437611185700, 241780686347948342113400, 241790634399039278316700, 241800572842790964648900,
  241821024555297418310800, 241841044499441319052800, 241850686347948342113400, 241870887319288403776300, 241880831558365152108600,
  241890906095484445772700, 241900850554006447808700, 241910757637914208339700, 241960858714919697295500, 241981023819999987784800,
  241991354508670206876400, 242020811005551220490300, 242070874847005150971700, 242081211000217677944000, 242110774206239276291300,
  242120923563076022971600, 242130820084040363232700, 242141307508307282302700, 242150858925964446750200, 242170919351927487959000,
  242181320861446544755000, 242200946247739606508300, 242221584767179506280900, 242230858084444754221700, 242241376823025338297200,
  242301002758886471044700, 242310860845682128300300, 242350774206239276291300, 242370970134253739391100, 242451320861446544755000,
  242461042272177758140600, 242470841518798714569000, 242481168878871170313600, 242570960350489439907300, 242580989963680588216200,
  242641405591232583475400, 242651029859571016759000, 242661083039195824788300, 242820904527703173849900, 242870919351927487959000,
  242880796234255578961750, 242900858084444754221700, 242910757637914208339700, 243001211000217677944000, 243070970563438947545300,
  243101032621087720056300, 243111123255127822155000, 243140612955042950686000, 243200705892591312467400, 243220769001477986633600]

def emitB25_3 : List Nat := [
  243231229232373357339500, 243241056446806632482000, 243281307508307282302700, 243301000412737803144800, 243311248037596507633400,
  243351026042313666255800, 243390966146317116231400, 243410852714483279007000, 243441201903039857371300, 243471241368459057766100,
  243510767296891259334700, 243521084372548911734800, 243571024924983606443400, 243581061122983223285800, 243590968646447336773200,
  243611151693845477647700, 243671040525408454101500, 243690869305643814914600, 243731084372548911734800, 243750709588090228724500,
  243770745740329722023800, 243780709588090228724500, 243920745740329722023800, 243961024924983606443400, 243981040525408454101500,
  244020976773859996721900, 244030767522497672002900, 244050939247323172268600, 244071053446581602102000, 244131584767179506280900,
  244180574148832648157550, 244201285193952150881800, 244250800500032008335000, 244330744499199043533200, 244351515452461450286300,
  244411185868774849853400, 244431307508307282302700, 244441058498160615792300, 244480975636191298511000, 244490938933351171801800,
  244520856148008036042500, 244530920779596123627200, 244561446137743394291800, 244590850037209431964400, 244600642804341806285700,
  244641307508307282302700, 244650856148008036042500, 244660902874772978728800, 244710942280277115742100, 244781071777308013973400,
  244810865925905856585500, 244901248037596507633400, 244931024924983606443400, 244940761125126779741700, 245010938933351171801800,
  245030925874531752929000, 245051307508307282302700, 245090994777444148031600, 245150608258461226270700, 245170973177966957977400,
  245181446137743394291800, 245241376823025338297200, 245251191584616233848200, 245271336276514527480900, 245350900072865547743000,
  245361313962159396059800, 245371376823025338297200, 245440884642617299333300, 245511027932729130171200, 245550896523432406496200,
  245650901356305624897000, 245751584767179506280900, 245760927678883272322400, 245770715837574704694800, 245940953412374878571400,
  245961201903039857371300, 245971354508670206876400, 246050663085245698891700, 246081290323281589636800, 246091232131127044664600,
  246130851138613504151000, 246150638075309568617800, 246161007001947184015100, 246180901248720891550700, 246231215879234094887300,
  246350536953910604773550, 246460870247566006563700, 246511065471494417259800, 246560969493910035870400, 246580870247566006563700,
  246651365044721772658900, 246741142883118726621000, 246761354508670206876400, 246771041832616610836800, 246801307508307282302700,
  246810935694826056030100, 246851167328452516717000, 246870957479478851664100, 246911423823388262870700, 246940870880479511728500,
  247081235116423359632900, 247171241368459057766100, 247241307508307282302700, 247261103548743969039000, 247351221008563533642300,
  247390777864246628785100, 247480907230570412641800, 247540898910676027144400, 247581092041810990560400, 247641258957525704132700,
  247730539329210954760600, 247781039235067970510700, 248010870880479511728500, 248071226415285660669800, 248080965122766726828700,
  248091140502053857249200, 248150877609843085127600, 248161135903542533066900, 248190839759222525530900, 248331093501690932675700,
  248470591118476426357200, 248581071187335801254600, 248590786116685650881300, 248630682402251239852300, 248641320861446544755000,
  248681320861446544755000, 248711365044721772658900, 248950926150014020813300, 249041113814159375047400, 249070715837574704694800,
  249091320861446544755000, 249171474905950639470000, 249200965122766726828700, 249301025668481455195100, 249310877609843085127600,
  249351206348216114454700, 249441182232010432765900, 249501023819999987784800, 249621027932729130171200, 249770992877794078966100,
  249961320861446544755000, 250001423823388262870700, 250100811705772899906800, 250141446137743394291800, 250221365044721772658900,
  250311423823388262870700, 250330923563076022971600, 250351336276514527480900, 250421114719142927039300, 250621238193589226308200,
  250741140502053857249200, 250781114719142927039300, 250790927678883272322400, 250800907230570412641800, 250821336276514527480900,
  250841226415285660669800, 250871133681228854595900, 250881065471494417259800, 250960996713880866210800, 250981146564516038892700,
  251011336276514527480900, 251021112028397635046800, 251030766875246221441200, 251040565514059743576700, 251050631865953394810000,
  251060925462726092037000, 251101405591232583475400, 251120549703351293140900, 251141584767179506280900, 251301015731234073874800,
  251360549703351293140900, 251380766875246221441200, 251391328272243760127200, 251420815921643851286400, 251430815921643851286400,
  251510642617948462479400, 251520651158021778106550, 251530992877794078966100, 251590938308349137284700, 251601170453706867127500,
  251611258957525704132700, 251630585874076070921300, 251650926012178023801300, 251661307508307282302700, 251691106018005228076200,
  251701248037596507633400, 251710907344790870519400, 251760950379136093647700, 251871083039195824788300, 251901474905950639470000,
  251910880189521818329700, 251931033424304889782700, 251950992609337541899400, 251961024186972876681200, 251971018818957930318800,
  251981266961796471486300, 252001320861446544755000, 252031095732266684105500, 252061066028598922205400, 252090896934532677148300,
  252141145322264039037000, 252150903312889780285000, 252160591895518848090500, 252201061122983223285800, 252260894996685193417300,
  252331084372548911734800, 252341064917476379698300, 252351109408160395644300, 252370592007716718344800, 252390836611609315329300,
  252400869775495893070000, 252421165801705303638300, 252431107698717059714400, 252501141685499621949500, 252520832419048248931000,
  252530650964206194573600, 252591018124510695037600, 252601258957525704132700, 252651073568400670626500, 252691008248069227796300,
  252731111147334666831200, 252761077876759284257700, 252771007312024951840000, 252791584767179506280900, 252821336276514527480900,
  252850951261754356475000, 252861158499191802149200, 252871068288582113929400, 252890912263815289596600, 252911107698717059714400,
  252931039235067970510700, 252941354508670206876400, 252960889303293018182100, 252991010787888288357400, 253001423823388262870700,
  253020939720137291863200, 253031087093805264223400, 253041165801705303638300, 253051336276514527480900, 253070817677696370069100,
  253081120328089592143600, 253111173679793088949600, 253171127296081655942600, 253181154360670185864000, 253201301445845100659100,
  253211390176164600749500, 253241085045952129869400, 253261248037596507633400, 253291023454368867473900, 253310903203180498847800,
  253321376823025338297200, 253351149096296837321600, 253401106018005228076200, 253421515452461450286300, 253430963506569931128900,
  253450858504319408856600, 253461004857914060228200, 253510569194801700919850, 253531008877002118552800, 253581135903542533066900,
  253611048637962935338300, 253660987386218319354600, 253701128332360359497200, 253761229232373357339500, 253771093501690932675700,
  253801423823388262870700, 253811119371144490528500, 253861206348216114454700, 253871020931712572906300, 253910993146973245537300,
  254011290323281589636800, 254021390176164600749500, 254051126270431639223600, 254141446137743394291800, 254211474905950639470000,
  254241128332360359497200, 254291056955713583229000, 254381446137743394291800, 254390764464155334795000, 254421086406517335447200,
  254431313962159396059800, 254541081723387367037300, 254631074172632116222700, 254671098785939070113600, 254750992609337541899400,
  254801178722878451638900, 254840849266987395755300, 254900792504822084552300, 254961255183492905848000, 254991004857914060228200,
  255041238193589226308200, 255050938933351171801800, 255060862219032228051300, 255090895808048670834200, 255110920779596123627200,
  255120857111539234410000, 255131092769086923468300, 255140708252537342378650, 255181307508307282302700, 255271280314935733938600,
  255281365044721772658900, 255301376823025338297200, 255511204100930529248900, 255520852120618122248700, 255540931243052404915000,
  255621024186972876681200, 255631086406517335447200, 255691474905950639470000, 255811116554056793858900, 255821119371144490528500,
  255880995602758323703800, 256021515452461450286300, 256051199752419335275000, 256130764464155334795000, 256191405591232583475400,
  256221001578931777929000, 256231313962159396059800, 256281147822394259578600, 256301446137743394291800, 256421128332360359497200,
  256441241368459057766100, 256451140502053857249200, 256541141685499621949500, 256581149096296837321600, 256680883375632025228000,
  256701055940476436827200, 256711001578931777929000, 256740964919307857050000, 256841584767179506280900, 256881052466181592440000,
  256951515452461450286300, 257031474905950639470000, 257050869462016012532900, 257111128332360359497200, 257200983885860962021400,
  257211185868774849853400, 257221515452461450286300, 257231376823025338297200, 257361446137743394291800, 257441223675388241858500,
  257451223675388241858500, 257461059017642303502700, 257471229232373357339500, 257581235116423359632900, 257631365044721772658900,
  257651301445845100659100, 257711165801705303638300, 257721320861446544755000, 257731089891190468464000, 257741320861446544755000,
  257761150386637320912400, 257781106018005228076200, 257841474905950639470000, 257921235116423359632900, 257931127296081655942600,
  257941244647441340065300, 257991390176164600749500, 258021285193952150881800, 258031093501690932675700, 258050947605994783095300,
  258061307508307282302700, 258101584767179506280900, 258120951261754356475000, 258181081723387367037300, 258241423823388262870700,
  258301155721235391441800, 258361173679793088949600, 258421280314935733938600, 258441033424304889782700, 258501055940476436827200,
  258521474905950639470000, 258541320861446544755000, 258561241368459057766100, 258741390176164600749500, 258761154360670185864000,
  258841149096296837321600, 258850883375632025228000, 258901390176164600749500, 258920964919307857050000, 258981199752419335275000,
  259021423823388262870700, 259030692848618501737900, 259100576620543516686300, 259130958618011074176700, 259150906095484445772700,
  259180850813409965513400, 259190480415813450118800, 259250715099440167277700, 259280660254359760096100, 259320706888386595810800,
  259351146564516038892700, 259370861710864165351600, 259411112917292376771300, 259421301445845100659100, 259430941956652237821100,
  259441057467223649906200, 259450611319478526096300, 259491474905950639470000, 259501344977652226443800, 259540830651933992650100]

def emitB25_4 : List Nat := [
  259550814918900718186200, 259581132588321801376800, 259641070600823856014800, 259680558051382407556100, 259701128332360359497200,
  259720685337523728561200, 259730706888386595810800, 259751354508670206876400, 259760558051382407556100, 259910525023738179617100,
  259951170453706867127500, 260010921830854162536000, 260070969920349914516100, 260091144095254779855600, 260120915558805255618000,
  260201241368459057766100, 260211313962159396059800, 260231043157139285838800, 260290866304264234549300, 260310993146973245537300,
  260320575741426132682900, 260390866304264234549300, 260410486212486719963900, 260451028315138774011600, 260491076626743007834500,
  260511365044721772658900, 260530794296788118906200, 260590885465667212984700, 260601083703650096655300, 260630939720137291863200,
  260710752746719748392900, 260800749252705560097000, 260821159917655301345000, 260850648564090984619300, 260861223675388241858500,
  260870832527156367568300, 260880995051792742606800, 260890843611550725164400, 260921229232373357339500, 260931266961796471486300,
  260941241368459057766100, 260970915310973654171400, 261020463766387518713900, 261031092769086923468300, 261060991277759944322000,
  261180858925964446750200, 261241295730003716664300, 261260762673062678141900, 261271164297917567184200, 261310996993601328316900,
  261371313962159396059800, 261430750031838293846900, 261441221008563533642300, 261490775941706794037800, 261571328272243760127200,
  261590963707171803815600, 261651344977652226443800, 261720971862158500226200, 261740915063754739632400, 261780463766387518713900,
  261791474905950639470000, 261851301445845100659100, 261871301445845100659100, 261941187737988151068600, 261951423823388262870700,
  261971584767179506280900, 262020811969625295725000, 262050971862158500226200, 262141474905950639470000, 262160959769655280332600,
  262220843611550725164400, 262230776372609276718700, 262281017091799279452700, 262300828136078029034600, 262340783731220614302400,
  262381584767179506280900, 262421106018005228076200, 262481584767179506280900, 262571189642807648138100, 262620899120981046822200,
  262630865925905856585500, 262741244647441340065300, 262791365044721772658900, 262831106018005228076200, 262861032621087720056300,
  262891344977652226443800, 262920827260009555524800, 263111313962159396059800, 263131423823388262870700, 263261365044721772658900,
  263291018471131492686300, 263331354508670206876400, 263361092769086923468300, 263481187737988151068600, 263540796422544092506900,
  263551213409972835850000, 263561095732266684105500, 263600653739559447402650, 263611423823388262870700, 263641223675388241858500,
  263661063818564222138700, 263671028315138774011600, 263680811223844256312000, 263710609564687173465100, 263760622059672272023100,
  263770646337811596318800, 263790755012826570652500, 263810757945291499530250, 263881094239701662437800, 263891336276514527480900,
  263911390176164600749500, 263950942118333760511800, 263970716632101748028700, 263990656037038195049800, 264061515452461450286300,
  264080699429212213517500, 264100961719034748432700, 264110836611609315329300, 264120691916397074951500, 264131161356529046555000,
  264150997555400558739300, 264170981219036253805200, 264201053940409766160400, 264211307508307282302700, 264260493447602996457800,
  264320908378688650037300, 264340746859190577620500, 264350654466108824531700, 264380920910400589628800, 264411059539836701617900,
  264441584767179506280900, 264461011433051816506400, 264471014388932040660800, 264480704514929677838700, 264490715787073904025600,
  264600981219036253805200, 264621423823388262870700, 264631201903039857371300, 264640886480904359386600, 264650606465839599455500,
  264690688604922552026500, 264720988924710203302700, 264771091319786193211700, 264790961130220485910400, 264801054935442851477100,
  264810626019720474652350, 264851446137743394291800, 264940859845673794842000, 264950651308046074876850, 264970805738941435932600,
  265000805904572943777700, 265031135903542533066900, 265170977693406706031900, 265190779984243760496700, 265240792215281527588300,
  265250928381626853068000, 265261344977652226443800, 265300840576506701118500, 265311024924983606443400, 265380812455170279647700,
  265391137033498058460200, 265411271217757913365900, 265430975184723263058300, 265471271217757913365900, 265500939090213949064500,
  265511149096296837321600, 265521083703650096655300, 265641584767179506280900, 265751079781578781327000, 265770959384298348733500,
  265790880189521818329700, 265801006384661273307100, 265861159917655301345000, 265880980980087514067000, 265901057981363599948000,
  265921040525408454101500, 265971365044721772658900, 266041376823025338297200, 266090938152707082519000, 266110949678607834807000,
  266120863022836336627600, 266131092041810990560400, 266211208647167936924700, 266231067718780002465600, 266241251546728488760400,
  266291092041810990560400, 266310630014515573175600, 266321062731596998448300, 266351258957525704132700, 266381354508670206876400,
  266390959962892055437900, 266410735559130446164660, 266431053446581602102000, 266461191584616233848200, 266471087785849548680900,
  266531320861446544755000, 266570751056266550033400, 266661161356529046555000, 266741147822394259578600, 266790720719958748639900,
  266800673230166067785250, 266810785641786522260950, 266840755487293686243300, 266851251546728488760400, 266881423823388262870700,
  266891149096296837321600, 266900977924620681869800, 266910914325744009870000, 266921474905950639470000, 266931118423270095074000,
  266940903752934494767100, 266960779314918552551500, 266971201903039857371300, 267000852913224649490700, 267021215879234094887300,
  267041074172632116222700, 267050980741708378539400, 267081104365075032955300, 267201584767179506280900, 267211328272243760127200,
  267230863907145710261000, 267241376823025338297200, 267250880363889778812400, 267261092769086923468300, 267271376823025338297200,
  267281218411014893316100, 267291320861446544755000, 267311251546728488760400, 267510920910400589628800, 267531275662934170449200,
  267551474905950639470000, 267570898700812361452300, 267581074172632116222700, 267711390176164600749500, 267721251546728488760400,
  267751258957525704132700, 267810606465839599455500, 267831271217757913365900, 267861167328452516717000, 267900899437270187673000,
  267911085045952129869400, 267921032621087720056300, 267971028315138774011600, 267990914817145490113000, 268031109408160395644300,
  268051258957525704132700, 268160873290234669634600, 268201229232373357339500, 268250752625020816493000, 268270943093951255048200,
  268290986121978977837000, 268341001286105800020300, 268370914694068551499800, 268391024924983606443400, 268401164297917567184200,
  268421047703376693514500, 268471258957525704132700, 268481390176164600749500, 268511515452461450286300, 268551062731596998448300,
  268620769460984826175800, 268651052955180121859200, 268661191584616233848200, 268691313962159396059800, 268740838545685529461900,
  268850885557536764692000, 268911354508670206876400, 268930675341590210742700, 268941103548743969039000, 268951584767179506280900,
  268981405591232583475400, 269250910243544557844700, 269280993146973245537300, 269321221008563533642300, 269411275662934170449200,
  269431223675388241858500, 269540988924710203302700, 269631137033498058460200, 269641126270431639223600, 269700940992014532640700,
  269731390176164600749500, 269741255183492905848000, 269761083703650096655300, 269821390176164600749500, 269890572212127483271500,
  269970805738941435932600, 269991053940409766160400, 270001390176164600749500, 270011405591232583475400, 270040748060406222420850,
  270100684423259885497100, 270141092769086923468300, 270171423823388262870700, 270281336276514527480900, 270291153018368152649800,
  270351161356529046555000, 270360948809792639043000, 270471390176164600749500, 270481029471221014119000, 270511320861446544755000,
  270540901033898037721700, 270600970134253739391100, 270671390176164600749500, 270711376823025338297200, 270731446137743394291800,
  270830805904572943777700, 270850812455170279647700, 270881056446806632482000, 270910886480904359386600, 271031083039195824788300,
  271221266961796471486300, 271231218411014893316100, 271331134786212473254400, 271371320861446544755000, 271380783830871843276360,
  271411344977652226443800, 271461266961796471486300, 271550748060406222420850, 271591515452461450286300, 271610630014515573175600,
  271660840576506701118500, 271671048169578004095600, 271690677901020141856300, 271710720719958748639900, 271780888164760795669600,
  271831515452461450286300, 271851000994134789686800, 271891182232010432765900, 271921053940409766160400, 271930735559130446164660,
  271941092769086923468300, 271971446137743394291800, 272040992877794078966100, 272081328272243760127200, 272110880363889778812400,
  272241116554056793858900, 272251053446581602102000, 272271354508670206876400, 272310493447602996457800, 272330838373519059388400,
  272340910243544557844700, 272430888164760795669600, 272491122269898177853700, 272641052955180121859200, 272651354508670206876400,
  272681110273966669955700, 272731208647167936924700, 272801376823025338297200, 272811584767179506280900, 272840863907145710261000,
  272921376823025338297200, 272980873290234669634600, 272991515452461450286300, 273051354508670206876400, 273151083039195824788300,
  273201040525408454101500, 273261344977652226443800, 273310980980087514067000, 273591354508670206876400, 273651122269898177853700,
  273841423823388262870700, 273871000994134789686800, 273960959962892055437900, 274020654466108824531700, 274241087785849548680900,
  274250835825971155408900, 274261039663334149710700, 274271336276514527480900, 274310820947355077702800, 274420952690350081222600,
  274501189642807648138100, 274531076626743007834500, 274540935846686373749000, 274631124250160907471700, 274651109408160395644300,
  274680786286840532840300, 274720820947355077702800, 274811295730003716664300, 274891039663334149710700, 274901059539836701617900,
  274910728321341117945700, 274930742062215349953650, 274940671216273370962900, 274951107698717059714400, 274981193564878963466200,
  275060925737074686612300, 275110601133951771408900, 275120976773859996721900, 275131063273603745382300, 275150772589437590173400,
  275161064917476379698300, 275291193564878963466200, 275301128332360359497200, 275310831826533722579600, 275420826493330614839600,
  275440831826533722579600, 275531178722878451638900, 275671178722878451638900, 275701064917476379698300, 275731041832616610836800]

def emitB25_5 : List Nat := [
  275751067152206248897900, 275780908378688650037300, 275801081723387367037300, 275830964109586833788200, 275841118423270095074000,
  275851118423270095074000, 275861290323281589636800, 275891117484296060090200, 275970705846870058908600, 275991354508670206876400,
  276020793268878921441440, 276040652838733609744600, 276050965530930558793600, 276071271217757913365900, 276110745400308993206800,
  276171092769086923468300, 276271016069643872298800, 276311162816408988670200, 276451376823025338297200, 276541238193589226308200,
  276561092769086923468300, 276611258957525704132700, 276630907230570412641800, 276650588549089618746200, 276680589050130561049600,
  276701365044721772658900, 276721584767179506280900, 276731206348216114454700, 276750963908176896618000, 276791071187335801254600,
  276820899015773251741700, 276830589050130561049600, 276841229232373357339500, 276861258957525704132700, 276870856559813696934400,
  276880903863248901982900, 276891474905950639470000, 276910899015773251741700, 276921474905950639470000, 276940997555400558739300,
  276950928240682502744700, 276961164297917567184200, 277000509915323522490000, 277040996156776361265300, 277121258957525704132700,
  277131115632391283366500, 277141139332449880930100, 277190754590203194564250, 277210752771077317627900, 277221206348216114454700,
  277331474905950639470000, 277350918453909907200500, 277391584767179506280900, 277411149096296837321600, 277421128332360359497200,
  277430784933639910982600, 277440995602758323703800, 277450894895726073282000, 277481007935079926903700, 277541023090069739623700,
  277691161356529046555000, 277700717741422791973400, 277730641442790057702400, 277741178722878451638900, 277771344977652226443800,
  277781301445845100659100, 277791162816408988670200, 277821515452461450286300, 277841354508670206876400, 277850882748108675088300,
  277941155721235391441800, 278010714333535657340300, 278070944907686052760100, 278091155721235391441800, 278131023819999987784800,
  278141262879597019460800, 278151098013734460722500, 278171515452461450286300, 278181032621087720056300, 278191280314935733938600,
  278221423823388262870700, 278251307508307282302700, 278270644861369878743300, 278320945408104111217700, 278330678559943975572800,
  278350922360656726291400, 278360876764529514021800, 278390970778724283655200, 278411474905950639470000, 278441197647078415491800,
  278490983395663902000700, 278501011433051816506400, 278521079142598971450000, 278601229232373357339500, 278610598282112614159900,
  278631474905950639470000, 278671146564516038892700, 278730815419015422763300, 278740785101791960020100, 278751474905950639470000,
  278770795223578811984300, 278800873779233199053700, 278820846866366743450300, 278880946585577765671000, 278911193564878963466200,
  278931164297917567184200, 278991139332449880930100, 279001112028397635046800, 279011157100567604675200, 279051238193589226308200,
  279150829753645257437900, 279221365044721772658900, 279270933592646541808000, 279311067152206248897900, 279340825985457506938100,
  279411014056153031393300, 279451197647078415491800, 279460844522027424456400, 279501295730003716664300, 279541248037596507633400,
  279581161356529046555000, 279630763456109746613300, 279640940832142396271000, 279651184033860983033800, 279660886018154806181700,
  279690615059359484972500, 279730915682951764424600, 279741017779087208228900, 279751405591232583475400, 279781042272177758140600,
  279791029471221014119000, 279821313962159396059800, 279831213409972835850000, 279850864874055437463500, 279870863537732656246800,
  279931235116423359632900, 280031271217757913365900, 280091145322264039037000, 280100887976259326092400, 280140879581617210691400,
  280201024555297418310800, 280230559155748143451700, 280241213409972835850000, 280341003354126323774200, 280400624414134585407400,
  280411123255127822155000, 280441086406517335447200, 280461235116423359632900, 280511290323281589636800, 280531235116423359632900,
  280591262879597019460800, 280611187737988151068600, 280631204100930529248900, 280650949678607834807000, 280681126270431639223600,
  280701012736001845539700, 280720685660746287434600, 280731376823025338297200, 280781266961796471486300, 280820786867542420869400,
  280851060592478000316600, 280920936609466578637800, 280951204100930529248900, 280960995879383672992800, 281011515452461450286300,
  281070924916276644829300, 281131189642807648138100, 281181584767179506280900, 281201211000217677944000, 281220846866366743450300,
  281290846306141188583400, 281321038808628091865000, 281360668704701533255800, 281381262879597019460800, 281391070017731824935600,
  281421262879597019460800, 281450776156925939370800, 281491017091799279452700, 281510817911068704691100, 281531405591232583475400,
  281540915682951764424600, 281551036287486157215400, 281650698038527107339300, 281701017091799279452700, 281731320861446544755000,
  281741584767179506280900, 281761068861649584828000, 281800806111998863409700, 281831023454368867473900, 281870965530930558793600,
  281920810483583963206000, 281930940832142396271000, 281951158499191802149200, 281960905532736759200000, 281980949678607834807000,
  282010703810754170865850, 282041029471221014119000, 282070757484579141240700, 282160726319385684097400, 282220864874055437463500,
  282281218411014893316100, 282371061122983223285800, 282460752188126917671800, 282481079142598971450000, 282631086406517335447200,
  282711007935079926903700, 282861204100930529248900, 282870919351927487959000, 282911032221885593102500, 282961515452461450286300,
  283040898700812361452300, 283100835268556111227600, 283161474905950639470000, 283170944907686052760100, 283220882035728102303200,
  283300972080261094862400, 283310703810754170865850, 283401178722878451638900, 283420818661541270097900, 283461336276514527480900,
  283491376823025338297200, 283531336276514527480900, 283541474905950639470000, 283561098013734460722500, 283571185868774849853400,
  283591215879234094887300, 283630937997306895845500, 283641126270431639223600, 283690933890265809112700, 283721423823388262870700,
  283731344977652226443800, 283781033424304889782700, 283821090602937245350500, 283850848629636608546000, 283881074780536723861000,
  283891262879597019460800, 283920927819037464851200, 283930998120373812951200, 283961032621087720056300, 283991090602937245350500,
  284021023454368867473900, 284040993687515102228100, 284141033424304889782700, 284150848629636608546000, 284170806111998863409700,
  284181165801705303638300, 284220986373551437561800, 284310993416878942453800, 284360800578586607818500, 284371089184473746154900,
  284481041394979150857000, 284500752771077317627900, 284511204100930529248900, 284571106018005228076200, 284581446137743394291800,
  284591033828345843483200, 284601320861446544755000, 284651584767179506280900, 284660685660746287434600, 284671515452461450286300,
  284721068861649584828000, 284791017779087208228900, 284971112028397635046800, 285001238193589226308200, 285041423823388262870700,
  285070770241222854594300, 285080770241222854594300, 285161012736001845539700, 285251172053741001771600, 285260870011252387335400,
  285281032221885593102500, 285301515452461450286300, 285441376823025338297200, 285501405591232583475400, 285511187737988151068600,
  285581154360670185864000, 285771145322264039037000, 285801157100567604675200, 285950969069280947725400, 286080760570523483100600,
  286091042272177758140600, 286110863537732656246800, 286261584767179506280900, 286290919351927487959000, 286391313962159396059800,
  286441262879597019460800, 286511262879597019460800, 286570927819037464851200, 286701074780536723861000, 286781584767179506280900,
  286811139332449880930100, 286871213409972835850000, 286890907459141940727300, 286931584767179506280900, 286981262879597019460800,
  286991423823388262870700, 287011023819999987784800, 287480861133245230846500, 287531365044721772658900, 287600998120373812951200,
  287711204100930529248900, 287790629971698188663600, 287811185868774849853400, 287830802082969690451500, 287840820227409563417500,
  287890804832839684688800, 287901052466181592440000, 287961206348216114454700, 287970830651933992650100, 287980830651933992650100,
  288090978621487613479000, 288101027551776288504500, 288140965735638920966200, 288181063818564222138700, 288201405591232583475400,
  288211048637962935338300, 288221290323281589636800, 288431365044721772658900, 288451036287486157215400, 288460765206222777403300,
  288560858855566696570700, 288570843430445936756900, 288580980503896138042700, 288591474905950639470000, 288600997837488192903300,
  288661079142598971450000, 288671180462052722825700, 288720895401544046017300, 288790816703436750187200, 288881336276514527480900,
  288891064917476379698300, 288911023454368867473900, 288950765759474534375900, 289000986878603016168700, 289021229232373357339500,
  289030908725710397938000, 289051137033498058460200, 289071446137743394291800, 289090662411909161449050, 289111077249797982898200,
  289161180462052722825700, 289191039663334149710700, 289211158499191802149200, 289251060592478000316600, 289381162816408988670200,
  289501515452461450286300, 289531515452461450286300, 289541101935805776050800, 289610749252705560097000, 289660823089598636443600,
  289761129379490346226700, 290010997837488192903300, 290061215879234094887300, 290170765759474534375900, 290221208647167936924700,
  290280688861728034711600, 290310794223014600252200, 290331229232373357339500, 290421301445845100659100, 290481423823388262870700,
  290531320861446544755000, 290601204100930529248900, 290660926842058305270700, 290711238193589226308200, 290740958237058232510000,
  290760886573711790642000, 290811474905950639470000, 290870942767686691566600, 290961258957525704132700, 291050662411909161449050,
  291230770969134061067000, 291280802082969690451500, 291291290323281589636800, 291341365044721772658900, 291380908725710397938000,
  291410916681711627259300, 291451446137743394291800, 291481515452461450286300, 291510708612165593316400, 291571208647167936924700,
  291591211000217677944000, 291651023454368867473900, 291721137033498058460200, 291900951261754356475000, 292000978621487613479000,
  292111079142598971450000, 292261045860006524630700, 292281025668481455195100, 292290889112635191124000, 292330786116685650881300,
  292370993416878942453800, 292380660360655368500500, 292390875343694913805200, 292400843974747250320900, 292411004253682614632000,
  292420875343694913805200, 292431241368459057766100, 292451285193952150881800, 292461301445845100659100, 292540860130371496034700]

def emitB25_6 : List Nat := [
  292550919998342149947800, 292560851203781313560600, 292600874599582344336400, 292730854450174382601000, 292750769489774231873500,
  292771446137743394291800, 292810953412374878571400, 292821019518261479415800, 292861013064409365658700, 292870819988574962187600,
  292890594553515459763650, 292951301445845100659100, 292980895300175562932700, 293011023454368867473900, 293050604444666446507500,
  293061111147334666831200, 293091023454368867473900, 293121046317673227372000, 293131134786212473254400, 293161170453706867127500,
  293221301445845100659100, 293251328272243760127200, 293301226415285660669800, 293391013064409365658700, 293431336276514527480900,
  293461301445845100659100, 293511111147334666831200, 293561083703650096655300, 293590951261754356475000, 293601336276514527480900,
  293660666923497209963400, 293690956540504816680200, 293760666923497209963400, 293780914325744009870000, 293891187737988151068600,
  293920999546931528833400, 293941262879597019460800, 293990943421283789545100, 294011204100930529248900, 294091405591232583475400,
  294170984873523311612500, 294200851595682533634200, 294211218411014893316100, 294220908263281828226700, 294251073568400670626500,
  294281365044721772658900, 294321124250160907471700, 294331218411014893316100, 294351235116423359632900, 294361015731234073874800,
  294540883106211116859000, 294611026042313666255800, 294670974959751289656800, 294691376823025338297200, 294701184033860983033800,
  294741131507230190955200, 294811146564516038892700, 294820897037572356538000, 294831000994134789686800, 294861218411014893316100,
  294920935543196004233700, 294940956540504816680200, 295031100348470860421700, 295081073568400670626500, 295090908263281828226700,
  295180851726658321840600, 295201168878871170313600, 295361187737988151068600, 295440851595682533634200, 295481336276514527480900,
  295541018124510695037600, 295570883106211116859000, 295600955610265550448900, 295631218411014893316100, 295641026042313666255800,
  295661474905950639470000, 295720973177966957977400, 295751376823025338297200, 295770749088212513959500, 295790669157643793902150,
  295951031033752804427200, 296090849330946464133200, 296110963908176896618000, 296150631895042188557450, 296160613208131365382100,
  296191155721235391441800, 296261271217757913365900, 296270804546247881569200, 296321584767179506280900, 296420886388182980467400,
  296450881504753403480200, 296481165801705303638300, 296571137033498058460200, 296640897347329960951400, 296770845749036683637800,
  296940613208131365382100, 296990807113676687756900, 297020597887921232356700, 297051021646001324144300, 297121170453706867127500,
  297331069438020056503000, 297471376823025338297200, 297480987640995527234500, 297490985871037817294600, 297541165801705303638300,
  297561193564878963466200, 297811165801705303638300, 297851248037596507633400, 297861584767179506280900, 297881078507676203584300,
  297901066028598922205400, 297951170453706867127500, 297961103548743969039000, 298021031033752804427200, 298081180462052722825700,
  298141103548743969039000, 298311405591232583475400, 298381295730003716664300, 298541320861446544755000, 298720631895042188557450,
  298851271217757913365900, 298981193564878963466200, 299081295730003716664300, 299160953593698590989400, 299201423823388262870700,
  299221153018368152649800, 299231159917655301345000, 299241320861446544755000, 299260929659146001940300, 299351474905950639470000,
  299420934788475440695300, 299430905532736759200000, 299641474905950639470000, 299691584767179506280900, 299760842769187140097400,
  299781344977652226443800, 299800917311040324838300, 299830559595990459083000, 299860522167245333683100, 299891405591232583475400,
  299920674502799854200000, 299931365044721772658900, 299961089891190468464000, 300000827311331086032800, 300011087093805264223400,
  300020766204290391520100, 300031000412737803144800, 300050508091461262977800, 300070675453962399216700, 300081271217757913365900,
  300110763591739768761100, 300141193564878963466200, 300211244647441340065300, 300280843732469724178500, 300311365044721772658900,
  300410998973864057934900, 300421474905950639470000, 300431376823025338297200, 300440838087232004420600, 300451344977652226443800,
  300500965530930558793600, 300531151693845477647700, 300541584767179506280900, 300581014722822167212300, 300590763591739768761100,
  300640769001477986633600, 300700767522497672002900, 300720932557899689265600, 300791112028397635046800, 300860935089680487694600,
  300901139332449880930100, 300951022727092934565900, 300970848312478080716700, 301021405591232583475400, 301030879149651096239800,
  301051007312024951840000, 301091307508307282302700, 301111085045952129869400, 301151376823025338297200, 301161123255127822155000,
  301171258957525704132700, 301230807787079905891200, 301261149096296837321600, 301270993687515102228100, 301281423823388262870700,
  301291129379490346226700, 301301159917655301345000, 301311301445845100659100, 301331344977652226443800, 301371354508670206876400,
  301400885465667212984700, 301420762484966424914800, 301481446137743394291800, 301490666388075832016200, 301510811486426464078800,
  301521285193952150881800, 301531295730003716664300, 301641213409972835850000, 301650940195197567723000, 301681328272243760127200,
  301691295730003716664300, 301710991013558998038100, 301741180462052722825700, 301781138176367640822500, 301801168878871170313600,
  301821365044721772658900, 301841248037596507633400, 301921290323281589636800, 301931244647441340065300, 301961098013734460722500,
  302011336276514527480900, 302021336276514527480900, 302041218411014893316100, 302071365044721772658900, 302081255183492905848000,
  302181390176164600749500, 302190993687515102228100, 302201515452461450286300, 302321328272243760127200, 302391033424304889782700,
  302411149096296837321600, 302421187737988151068600, 302441285193952150881800, 302461040959248613961400, 302471085045952129869400,
  302501390176164600749500, 302511515452461450286300, 302561280314935733938600, 302601251546728488760400, 302641201903039857371300,
  302661328272243760127200, 302701365044721772658900, 302740879149651096239800, 302751295730003716664300, 302781248037596507633400,
  302840983151463536445500, 302921301445845100659100, 302941238193589226308200, 303021187737988151068600, 303031390176164600749500,
  303081405591232583475400, 303131187737988151068600, 303151100348470860421700, 303181365044721772658900, 303201285193952150881800,
  303211515452461450286300, 303221100348470860421700, 303310959000420718017000, 303320639839326587377500, 303330632756990549196500,
  303340684104006176222800, 303381112028397635046800, 303401052466181592440000, 303430595990720299191700, 303551390176164600749500,
  303581087093805264223400, 303820702844993748786900, 303841129379490346226700, 303850994230994700823900, 303881344977652226443800,
  303940994230994700823900, 304051446137743394291800, 304060764765814688737500, 304080735068131096409100, 304101077249797982898200,
  304160803691367853345200, 304170802482650478303600, 304181008248069227796300, 304201081723387367037300, 304220989442846077502500,
  304230950731249133505700, 304240831880253842055800, 304270850101663188627000, 304280950731249133505700, 304310897554369372382300,
  304350802482650478303600, 304360831880253842055800, 304371365044721772658900, 304391013393898955343900, 304421365044721772658900,
  304460612295212112133800, 304500947948460871231500, 304520743007796886932600, 304560801169721334124300, 304571307508307282302700,
  304601255183492905848000, 304621037540112139133400, 304650704319661121613000, 304730860630551174049000, 304750806569856062842500,
  304950741277384637340100, 304961584767179506280900, 305051390176164600749500, 305191066028598922205400, 305201157100567604675200,
  305240612295212112133800, 305260734012498069837600, 305280989963680588216200, 305291344977652226443800, 305451376823025338297200,
  305551474905950639470000, 305561344977652226443800, 305610970563438947545300, 305630979323244879343800, 305661197647078415491800,
  305711087785849548680900, 305901038808628091865000, 305961376823025338297200, 306041376823025338297200, 306060971644530557966800,
  306361474905950639470000, 306371390176164600749500, 306431077249797982898200, 306511515452461450286300, 306521376823025338297200,
  306551584767179506280900, 306831047239338737864300, 306901032621087720056300, 306930710525721253739600, 306971014722822167212300,
  306991244647441340065300, 307001376823025338297200, 307010831024175847630000, 307021083039195824788300, 307031244647441340065300,
  307070610711502152870300, 307121229232373357339500, 307170943093951255048200, 307181515452461450286300, 307190677349484789949700,
  307210882124498636317300, 307220897450796085029100, 307321218411014893316100, 307331149096296837321600, 307381071187335801254600,
  307400707366819486187700, 307420886388182980467400, 307431235116423359632900, 307461182232010432765900, 307491164297917567184200,
  307511515452461450286300, 307551515452461450286300, 307591153018368152649800, 307641328272243760127200, 307651474905950639470000,
  307720901571822949695300, 307751185868774849853400, 307781584767179506280900, 307791584767179506280900, 307821000123302000508500,
  307841584767179506280900, 307890943093951255048200, 307911446137743394291800, 308021584767179506280900, 308050972517898554842300,
  308130927120222601458400, 308241235116423359632900, 308270875177857396527700, 308280843611550725164400, 308300985371036775624000,
  308311182232010432765900, 308441122269898177853700, 308571128332360359497200, 308601241368459057766100, 308620890165780396358000,
  308650944907686052760100, 308711038808628091865000, 308721146564516038892700, 308791114719142927039300, 308831223675388241858500,
  308870989442846077502500, 308890972517898554842300, 308961301445845100659100, 308970919868724503803200, 308981446137743394291800,
  308990872722742267032100, 309001405591232583475400, 309060985371036775624000, 309080882124498636317300, 309101128332360359497200,
  309130773995173315227450, 309171390176164600749500, 309281213409972835850000, 309331446137743394291800, 309371474905950639470000,
  309380886388182980467400, 309520942442483152928800, 309670898700812361452300, 309701157100567604675200, 309771118423270095074000,
  309901584767179506280900, 310140677349484789949700, 310181584767179506280900, 310191000123302000508500, 310201515452461450286300,
  310251584767179506280900, 310340995051792742606800, 310360760412628713454900, 310380551071493800891900, 310401515452461450286300]

def emitB25_7 : List Nat := [
  310411175332723284070700, 310620753897987822391100, 310671213409972835850000, 310691201903039857371300, 310700646304203798993500,
  310721006692827927048000, 310741280314935733938600, 310771515452461450286300, 310800813567528801514000, 310850929802105282899800,
  310951354508670206876400, 310960966765514141023600, 311031204100930529248900, 311041140502053857249200, 311050880976583161562700,
  311081204100930529248900, 311090949504239874324300, 311170966765514141023600, 311190835435454620066400, 311420865925905856585500,
  311460949504239874324300, 311500760412628713454900, 311531354508670206876400, 311630836780766389778200, 311651019869755690160300,
  311661040525408454101500, 311671109408160395644300, 311680965122766726828700, 311690773334708590746900, 311711109408160395644300,
  311741307508307282302700, 311761232131127044664600, 311771117484296060090200, 311790913714868561038000, 311810695932892595352650,
  311850603323405936019200, 311861038808628091865000, 311891515452461450286300, 311920728130755964012200, 311990877101797961885800,
  312041197647078415491800, 312060928947399225054000, 312071072370781565955000, 312090860344427945945800, 312111262879597019460800,
  312150790958306816585650, 312160863096230835335000, 312241189642807648138100, 312270903752934494767100, 312291218411014893316100,
  312320907917858341418000, 312370761896099626912100, 312401307508307282302700, 312430656166751916563600, 312460761896099626912100,
  312551390176164600749500, 312581182232010432765900, 312621584767179506280900, 312641344977652226443800, 312780695932892595352650,
  312810863096230835335000, 312830859420141237828000, 312910899542922601093000, 312921301445845100659100, 312931165801705303638300,
  312950975410202501767300, 313090790958306816585650, 313101280314935733938600, 313191175332723284070700, 313301218411014893316100,
  313370859420141237828000, 313481042713679579052200, 313510940832142396271000, 313531072370781565955000, 313540611520983957878350,
  313590958618011074176700, 313601584767179506280900, 313610846306141188583400, 313631218411014893316100, 313641365044721772658900,
  313731048169578004095600, 313770936456444360561000, 313830865774962431700000, 313841133681228854595900, 313890975862691961596200,
  313911014388932040660800, 313921255183492905848000, 313971423823388262870700, 313981295730003716664300, 314001280314935733938600,
  314010975862691961596200, 314020940832142396271000, 314060940832142396271000, 314070936456444360561000, 314181423823388262870700,
  314291048169578004095600, 314311295730003716664300, 314341218411014893316100, 314350835491149414043000, 314461051013371536149000,
  314490889973472644784000, 314540838430874954278800, 314560913836745480451000, 314591584767179506280900, 314610913958771120973900,
  314710922893281154558800, 314780838430874954278800, 314810823681900466755800, 314871271217757913365900, 314941446137743394291800,
  314981290323281589636800, 314991129379490346226700, 315050797636059173940200, 315080762297223309557400, 315131244647441340065300,
  315151027932729130171200, 315241197647078415491800, 315260881064418037653100, 315281204100930529248900, 315320926012178023801300,
  315441271217757913365900, 315461154360670185864000, 315481050056426434534000, 315580762297223309557400, 315591390176164600749500,
  315610794444498633207500, 315630994503846166144200, 315651129379490346226700, 315671145322264039037000, 315681238193589226308200,
  315701112028397635046800, 315720854315584860265400, 315740753774880580449000, 315781354508670206876400, 315791123255127822155000,
  316021515452461450286300, 316051004555341968574600, 316070965735638920966200, 316090952152232190770900, 316140999546931528833400,
  316160904638876059118900, 316271154360670185864000, 316291515452461450286300, 316361262879597019460800, 316371446137743394291800,
  316390900498851282438700, 316441238193589226308200, 316451474905950639470000, 316490714749060230945600, 316571193564878963466200,
  316591390176164600749500, 316601584767179506280900, 316610995326896079795800, 316650905645033233662200, 316681232131127044664600,
  316800728206946443888400, 316840680279586281415800, 316861043602574320776800, 316871013064409365658700, 316991189642807648138100,
  317091101138988811133000, 317181354508670206876400, 317211123255127822155000, 317260938776734068527400, 317291142883118726621000,
  317311354508670206876400, 317351328272243760127200, 317421275662934170449200, 317511584767179506280900, 317571189642807648138100,
  317770904638876059118900, 317831266961796471486300, 317861131507230190955200, 317871390176164600749500, 317991376823025338297200,
  318001147822394259578600, 318050999546931528833400, 318061009509915623717500, 318071113814159375047400, 318110938776734068527400,
  318200952152232190770900, 318211134786212473254400, 318401050056426434534000, 318521142883118726621000, 318541193564878963466200,
  318590902765543038867900, 318670726675291276602600, 318681232131127044664600, 318691195585149695218200, 318810878891364254414300,
  318900839063970594042800, 318950928947399225054000, 318960834548530845988300, 319031235116423359632900, 319081154360670185864000,
  319141013393898955343900, 319180739086575366166600, 319231134786212473254400, 319251154360670185864000, 319331063818564222138700,
  319340660699622329055300, 319461057981363599948000, 319481328272243760127200, 319491365044721772658900, 319571117484296060090200,
  319580811180147511024300, 319611213409972835850000, 319641446137743394291800, 319661013393898955343900, 319671178722878451638900,
  319681191584616233848200, 319750739086575366166600, 319761295730003716664300, 319831074172632116222700, 319950606144866268733100,
  319980901141251778574100, 320000788665032917943900, 320040963506569931128900, 320050661743076138028900, 320081280314935733938600,
  320110955795622415381100, 320130896216212502799000, 320161001286105800020300, 320200930953197129513800, 320211211000217677944000,
  320230941634071312933000, 320250803408024211037600, 320260874188566558153600, 320271073568400670626500, 320320830598869518069800,
  320330761337215936655500, 320340997837488192903300, 320390973842421229844200, 320430812410932278483800, 320471178722878451638900,
  320480666019071723270800, 320511048169578004095600, 320571211000217677944000, 320660804668972380506800, 320680716818970060285200,
  320701229232373357339500, 320800557320706487718900, 320850860558943580584700, 320911151693845477647700, 320941032621087720056300,
  320971147822394259578600, 321021009192958147589700, 321040989442846077502500, 321101226415285660669800, 321130798787261450069900,
  321140860344427945945800, 321151290323281589636800, 321211155721235391441800, 321291162816408988670200, 321431423823388262870700,
  321470453352659132980750, 321560851530258913374600, 321600758924933260393200, 321621018124510695037600, 321721320861446544755000,
  321730824776983585431000, 321770899648686756906600, 321780667784096642483600, 321801515452461450286300, 321841390176164600749500,
  321891040525408454101500, 321901328272243760127200, 321911014722822167212300, 321961515452461450286300, 322020973842421229844200,
  322031170453706867127500, 322101405591232583475400, 322171244647441340065300, 322180768373084030780100, 322211365044721772658900,
  322221109408160395644300, 322240998120373812951200, 322270903532670088533000, 322320718412970731143400, 322331046777444152234800,
  322361423823388262870700, 322390951795088954011200, 322441112028397635046800, 322651092769086923468300, 322661313962159396059800,
  322721390176164600749500, 322831301445845100659100, 322861290323281589636800, 322910710398068451978750, 322990944575459833562400,
  323020940354053836236800, 323050880626013126799700, 323061423823388262870700, 323170536953910604773550, 323180989963680588216200,
  323211000412737803144800, 323231129379490346226700, 323251258957525704132700, 323400904750172676061000, 323501111147334666831200,
  323531068288582113929400, 323610909891224757112800, 323620864055293885505200, 323651164297917567184200, 323711474905950639470000,
  323800889494315043794000, 323921405591232583475400, 323961040093442339649800, 323991365044721772658900, 324031301445845100659100,
  324060818004570347781800, 324121118423270095074000, 324160901141251778574100, 324180661743076138028900, 324200818004570347781800,
  324220963506569931128900, 324230874188566558153600, 324241280314935733938600, 324260788665032917943900, 324280951795088954011200,
  324310930953197129513800, 324321211000217677944000, 324330941634071312933000, 324340899648686756906600, 324350896216212502799000,
  324370880626013126799700, 324381390176164600749500, 324391073568400670626500, 324400803408024211037600, 324410955795622415381100,
  324420761337215936655500, 324451001286105800020300, 324470768373084030780100, 324511112028397635046800, 324520716818970060285200,
  324531048169578004095600, 324540666019071723270800, 324550904750172676061000, 324560804668972380506800, 324571390176164600749500,
  324581229232373357339500, 324611211000217677944000, 324630453352659132980750, 324651162816408988670200, 324660989442846077502500,
  324670557320706487718900, 324691111147334666831200, 324720864055293885505200, 324731009192958147589700, 324751290323281589636800,
  324761147822394259578600, 324770860558943580584700, 324781032621087720056300, 324790798787261450069900, 324821155721235391441800,
  324831068288582113929400, 324851423823388262870700, 324861151693845477647700, 324870889494315043794000, 324890989963680588216200,
  324901405591232583475400, 324911328272243760127200, 324931040093442339649800, 324951170453706867127500, 324961040525408454101500,
  324981515452461450286300, 324990909891224757112800, 325000824776983585431000, 325011014722822167212300, 325021320861446544755000,
  325031129379490346226700, 325041018124510695037600, 325080851530258913374600, 325110758924933260393200, 325121515452461450286300,
  325141244647441340065300, 325171423823388262870700, 325181118423270095074000, 325211365044721772658900, 325261109408160395644300,
  325311046777444152234800, 325320998120373812951200, 325340718412970731143400, 325360903532670088533000, 325371092769086923468300,
  325381301445845100659100, 325410944575459833562400, 325431290323281589636800, 325441365044721772658900, 325461313962159396059800,
  325511423823388262870700, 325521301445845100659100, 325530940354053836236800, 325551258957525704132700, 325561405591232583475400,
  325601050533754309799800, 325641474905950639470000, 325681173679793088949600, 325700808805764436590600, 325731168878871170313600]

def emitB25_8 : List Nat := [
  325781057981363599948000, 325811405591232583475400, 325881057981363599948000, 325920929659146001940300, 325930667784096642483600,
  325990897347329960951400, 326021032621087720056300, 326091584767179506280900, 326101474905950639470000, 326171172053741001771600,
  326180823335964861080800, 326220930664179587290400, 326241032621087720056300, 326261206348216114454700, 326291137033498058460200,
  326311474905950639470000, 326331584767179506280900, 326411172053741001771600, 326450897347329960951400, 326481172053741001771600,
  326500814240932019648300, 326521275662934170449200, 326540708800312403286900, 326601135903542533066900, 326661024186972876681200,
  326701116554056793858900, 326711044499441319052800, 326760676778185247069100, 326771044499441319052800, 326791079142598971450000,
  326810745061440488655200, 326871390176164600749500, 326881111147334666831200, 326941295730003716664300, 326971376823025338297200,
  327010918453909907200500, 327051376823025338297200, 327090967806106257135200, 327181170453706867127500, 327220756316756780431200,
  327281226415285660669800, 327361102739022945777200, 327371031033752804427200, 327451515452461450286300, 327521023090069739623700,
  327611226415285660669800, 327631045860006524630700, 327641033424304889782700, 327681206348216114454700, 327690543784868403355400,
  327710833232722388237300, 327721474905950639470000, 327741193564878963466200, 327840970994474097657400, 327861344977652226443800,
  327890856835295964818800, 327910998688557159694300, 327921584767179506280900, 327931313962159396059800, 328190786354983635988200,
  328211474905950639470000, 328221248037596507633400, 328241290323281589636800, 328271041832616610836800, 328311474905950639470000,
  328421258957525704132700, 328431118423270095074000, 328440663593240217291850, 328520719176068433474800, 328540780208351425928000,
  328561128332360359497200, 328580856148008036042500, 328621221008563533642300, 328741081071919264917900, 328790719176068433474800,
  328801081071919264917900, 328820649600548699619000, 328831290323281589636800, 328870663593240217291850, 328930897969738609251600,
  328941118423270095074000, 328991251546728488760400, 329001515452461450286300, 329011251546728488760400, 329031155721235391441800,
  329050815601497225226200, 329071085723920828407300, 329080821236790880339400, 329181033828345843483200, 329201133681228854595900,
  329220859349394860629100, 329231028315138774011600, 329250849330946464133200, 329280917437382729515400, 329290477799119003762500,
  329301004857914060228200, 329321087785849548680900, 329330884188277580930700, 329370862583596977435900, 329431189642807648138100,
  329451336276514527480900, 329461258957525704132700, 329481262879597019460800, 329540879408606786913300, 329571584767179506280900,
  329580801407157140170400, 329590881769888335642300, 329611290323281589636800, 329630891230134904769900, 329660844644053064979300,
  329720730578599105619900, 329740883645780771244200, 329820736011340877626200, 329860895198909731494100, 329880865925905856585500,
  329901162816408988670200, 329930793781512779340600, 329971584767179506280900, 330031251546728488760400, 330041515452461450286300,
  330051061656317820822000, 330071344977652226443800, 330080946924561141122100, 330091405591232583475400, 330110879063481336491700,
  330121295730003716664300, 330140881769888335642300, 330160802843734120373800, 330201255183492905848000, 330210583273231723253700,
  330260832257104893700700, 330291290323281589636800, 330301100348470860421700, 330320895401544046017300, 330330895401544046017300,
  330340886573711790642000, 330390938464233814213800, 330401159917655301345000, 330410749558912371017100, 330431011433051816506400,
  330460859916772269219900, 330500751970393675732000, 330511251546728488760400, 330671028315138774011600, 330711423823388262870700,
  330731028315138774011600, 330800770096274285949000, 330860870880479511728500, 330961262879597019460800, 330981053940409766160400,
  330991149096296837321600, 331001218411014893316100, 331020801407157140170400, 331040997555400558739300, 331071307508307282302700,
  331081108549786026505200, 331091101935805776050800, 331201280314935733938600, 331251123255127822155000, 331260749558912371017100,
  331271069438020056503000, 331310881769888335642300, 331331376823025338297200, 331341124250160907471700, 331360862000929633415300,
  331371320861446544755000, 331390751970393675732000, 331440917437382729515400, 331450831024175847630000, 331461003653080208610900,
  331471584767179506280900, 331501405591232583475400, 331511017091799279452700, 331520962311336578744800, 331541295730003716664300,
  331671033021889859810100, 331761515452461450286300, 331781087785849548680900, 331791248037596507633400, 331801187737988151068600,
  331810962311336578744800, 331840881769888335642300, 331921182232010432765900, 331931584767179506280900, 332031049108552039079500,
  332111295730003716664300, 332130844644053064979300, 332151011433051816506400, 332160999834701511594800, 332181063273603745382300,
  332221474905950639470000, 332250770096274285949000, 332261191584616233848200, 332281515452461450286300, 332291159917655301345000,
  332401053940409766160400, 332470938464233814213800, 332510920258082555716500, 332530958809033099788600, 332551515452461450286300,
  332560972298840416860300, 332580672256256744928600, 332610947435200548579600, 332671116554056793858900, 332680998973864057934900,
  332761127296081655942600, 332801584767179506280900, 332850947605994783095300, 332860898491388201140700, 332871141685499621949500,
  332880799562158779691900, 332890797331297033292700, 332900832527156367568300, 332920901141251778574100, 332930988666645543953500,
  332981033424304889782700, 333071446137743394291800, 333081423823388262870700, 333100779092802008749400, 333111142883118726621000,
  333141106854830195128000, 333220648049862905983700, 333241124250160907471700, 333280802562778687719000, 333290995326896079795800,
  333311365044721772658900, 333321515452461450286300, 333331180462052722825700, 333341423823388262870700, 333351248037596507633400,
  333370735784980044270300, 333421515452461450286300, 333481162816408988670200, 333511221008563533642300, 333690995326896079795800,
  333820802562778687719000, 333841313962159396059800, 333910841105452982858300, 333921266961796471486300, 333931266961796471486300,
  333940758743750345551150, 333951126270431639223600, 333991126270431639223600, 334020693843651587054700, 334060952152232190770900,
  334100728206946443888400, 334191208647167936924700, 334211121294280683317300, 334261054935442851477100, 334311474905950639470000,
  334330990225118645623300, 334361365044721772658900, 334370981939327483211000, 334411211000217677944000, 334441515452461450286300,
  334451084372548911734800, 334460855397407446137000, 334481354508670206876400, 334511248037596507633400, 334521098013734460722500,
  334530950203543423421200, 334551029471221014119000, 334570667846596644518100, 334590943421283789545100, 334601584767179506280900,
  334641134786212473254400, 334651121294280683317300, 334671376823025338297200, 334691083703650096655300, 334731376823025338297200,
  334791057467223649906200, 334831280314935733938600, 334850944741434975398800, 334861093501690932675700, 334870911189178082048200,
  334891295730003716664300, 334911584767179506280900, 334921035050356976960700, 334931405591232583475400, 334950976089706815050200,
  334961344977652226443800, 334991218411014893316100, 335001164297917567184200, 335021121294280683317300, 335031515452461450286300,
  335071584767179506280900, 335081584767179506280900, 335091189642807648138100, 335100836780766389778200, 335111093501690932675700,
  335151336276514527480900, 335190965530930558793600, 335210776588758812780700, 335290896728771287680400, 335381515452461450286300,
  335390680279586281415800, 335401079781578781327000, 335410840576506701118500, 335451068861649584828000, 335501170453706867127500,
  335641241368459057766100, 335751164297917567184200, 335801285193952150881800, 335811221008563533642300, 335831077876759284257700,
  335851301445845100659100, 335861515452461450286300, 335881226415285660669800, 335891275662934170449200, 335900724301732787657700,
  335921195585149695218200, 335961344977652226443800, 336061069438020056503000, 336090692581381570917550, 336101069438020056503000,
  336161474905950639470000, 336180828395212664844200, 336201036703287172081600, 336261204100930529248900, 336301074172632116222700,
  336321244647441340065300, 336331365044721772658900, 336350901033898037721700, 336361206348216114454700, 336390958237058232510000,
  336401208647167936924700, 336431285193952150881800, 336470686599015508894500, 336550910125966648943500, 336561201903039857371300,
  336701365044721772658900, 336740858714919697295500, 336781178722878451638900, 336861170453706867127500, 336881390176164600749500,
  336921241368459057766100, 336961584767179506280900, 336981204100930529248900, 337031280314935733938600, 337041244647441340065300,
  337061515452461450286300, 337071195585149695218200, 337131182232010432765900, 337140873208966887835600, 337151515452461450286300,
  337161223675388241858500, 337191018124510695037600, 337241336276514527480900, 337251266961796471486300, 337291446137743394291800,
  337351446137743394291800, 337380981939327483211000, 337400993958885689387700, 337501262879597019460800, 337560860130371496034700,
  337571474905950639470000, 337591221008563533642300, 337600994777444148031600, 337611405591232583475400, 337690860702210080734200,
  337750765289015661945000, 337771032621087720056300, 337781285193952150881800, 337891515452461450286300, 337961584767179506280900,
  338021182232010432765900, 338051301445845100659100, 338061221008563533642300, 338161172053741001771600, 338201280314935733938600,
  338211006692827927048000, 338281020222489741957000, 338290708612165593316400, 338311301445845100659100, 338321052955180121859200,
  338360797712395055509700, 338411320861446544755000, 338451223675388241858500, 338521119371144490528500, 338530847555376672502100,
  338650807029819240494600, 338790777770364600296700, 338831213409972835850000, 338890819370261458403300, 338910736424223379938000,
  338941057467223649906200, 338990927678883272322400, 339001055940476436827200, 339051079781578781327000, 339091104365075032955300,
  339101446137743394291800, 339111206348216114454700, 339221474905950639470000, 339311423823388262870700, 339401515452461450286300,
  339450947435200548579600, 339481132588321801376800, 339701050533754309799800, 339721071187335801254600, 339760869854019650540200]

def emitB25_9 : List Nat := [
  339781244647441340065300, 339800944741434975398800, 339811255183492905848000, 339831197647078415491800, 339880940672525442988800,
  339911258957525704132700, 339950989442846077502500, 339971336276514527480900, 340011199752419335275000, 340031328272243760127200,
  340061170453706867127500, 340130813076565976442000, 340281423823388262870700, 340300873208966887835600, 340311376823025338297200,
  340361336276514527480900, 340441515452461450286300, 340581515452461450286300, 340651376823025338297200, 340671285193952150881800,
  340711030249435058324500, 340741295730003716664300, 340831423823388262870700, 340851079781578781327000, 340920851464878067632600,
  340931285193952150881800, 341031055436697033831600, 341061244647441340065300, 341131208647167936924700, 341151423823388262870700,
  341211280314935733938600, 341261074172632116222700, 341371474905950639470000, 341481474905950639470000, 341521125255194492821800,
  341541365044721772658900, 341571301445845100659100, 341621376823025338297200, 341641005771162416555400, 341691446137743394291800,
  341701446137743394291800, 341741474905950639470000, 341800896011922339819100, 341881474905950639470000, 341911195585149695218200,
  341961055436697033831600, 342041376823025338297200, 342121405591232583475400, 342141474905950639470000, 342171052955180121859200,
  342180943421283789545100, 342231071187335801254600, 342341244647441340065300, 342530813076565976442000, 342550908378688650037300,
  342591474905950639470000, 342611195585149695218200, 342690693843651587054700, 342721446137743394291800, 342760995879383672992800,
  342770686599015508894500, 342811085723920828407300, 342981244647441340065300, 342991017434852789131700, 343031208647167936924700,
  343081376823025338297200, 343100855397407446137000, 343110911189178082048200, 343141005771162416555400, 343150896728771287680400,
  343211007935079926903700, 343281515452461450286300, 343301474905950639470000, 343491013724477768793800, 343641376823025338297200,
  343671006692827927048000, 343820921041376377835200, 343841405591232583475400, 343881280314935733938600, 343890788282090761549500,
  343940882569537199064800, 343950882569537199064800, 343981320861446544755000, 343990867524721793796300, 344071063818564222138700,
  344110960156502958124500, 344121201903039857371300, 344151201903039857371300, 344171101935805776050800, 344251123255127822155000,
  344281320861446544755000, 344301092041810990560400, 344321584767179506280900, 344331146564516038892700, 344340998688557159694300,
  344421003056063509960400, 344441153018368152649800, 344451584767179506280900, 344530940672525442988800, 344601150386637320912400,
  344611423823388262870700, 344731204100930529248900, 344791090602937245350500, 344801164297917567184200, 344811365044721772658900,
  344861423823388262870700, 344961189642807648138100, 345021201903039857371300, 345030988666645543953500, 345070785641786522260950,
  345111376823025338297200, 345121223675388241858500, 345161138176367640822500, 345211168878871170313600, 345231119371144490528500,
  345261301445845100659100, 345271172053741001771600, 345321080424667814356200, 345411197647078415491800, 345421093501690932675700,
  345451344977652226443800, 345461307508307282302700, 345481336276514527480900, 345531584767179506280900, 345541344977652226443800,
  345551405591232583475400, 345581195585149695218200, 345601124250160907471700, 345620913958771120973900, 345631328272243760127200,
  345680979558262613839200, 345691244647441340065300, 345781515452461450286300, 345811405591232583475400, 345831028315138774011600,
  345841026794196907658700, 345861344977652226443800, 345880942442483152928800, 345930929802105282899800, 345951275662934170449200,
  345971101935805776050800, 346191098785939070113600, 346221405591232583475400, 346311365044721772658900, 346321295730003716664300,
  346331201903039857371300, 346361027551776288504500, 346381093501690932675700, 346451584767179506280900, 346471062192512134960700,
  346491038383999003719900, 346601446137743394291800, 346621092041810990560400, 346641101935805776050800, 346701204100930529248900,
  346721423823388262870700, 346741446137743394291800, 346760989963680588216200, 346781129379490346226700, 346801028315138774011600,
  346841173679793088949600, 346861213409972835850000, 346911102739022945777200, 347010979793833983085000, 347180998688557159694300,
  347191251546728488760400, 347221020222489741957000, 347281474905950639470000, 347311354508670206876400, 347351390176164600749500,
  347391154360670185864000, 347460846120094623291400, 347471173679793088949600, 347491376823025338297200, 347601295730003716664300,
  347621376823025338297200, 347631106018005228076200, 347661474905950639470000, 347691137033498058460200, 347701159917655301345000,
  347841154360670185864000, 347941584767179506280900, 347961201903039857371300, 347991307508307282302700, 348020960156502958124500,
  348061376823025338297200, 348091155721235391441800, 348111146564516038892700, 348141067152206248897900, 348211365044721772658900,
  348291093501690932675700, 348321336276514527480900, 348331213409972835850000, 348351354508670206876400, 348361423823388262870700,
  348371116554056793858900, 348470929802105282899800, 348501104365075032955300, 348700940672525442988800, 348731354508670206876400,
  348751093501690932675700, 348761584767179506280900, 348800679796976904943850, 348920501454302628438700, 348931037540112139133400,
  348990997555400558739300, 349001376823025338297200, 349030835714239300209600, 349050831451298760724600, 349070773334708590746900,
  349090855669701691982700, 349131221008563533642300, 349150716683031211823800, 349170810787733665410700, 349200690299111150391400,
  349240980266648102679700, 349281211000217677944000, 349351175332723284070700, 349451365044721772658900, 349521047703376693514500,
  349551052466181592440000, 349571089184473746154900, 349660950203543423421200, 349721045404424871044700, 349870788316843151126000,
  349891258957525704132700, 349991474905950639470000, 350090940195197567723000, 350100892109476184008400, 350130667016458018186600,
  350141423823388262870700, 350321213409972835850000, 350331019167998424295600, 350360810787733665410700, 350370667016458018186600,
  350410855329449577398600, 350440901679756041662900, 350481262879597019460800, 350641182232010432765900, 350651262879597019460800,
  350741109408160395644300, 350880931825295680058300, 350901295730003716664300, 351051184033860983033800, 351091159917655301345000,
  351220901679756041662900, 351260926288040267709300, 351371185868774849853400, 351401474905950639470000, 351671162816408988670200,
  351681423823388262870700, 351781045404424871044700, 351830980266648102679700, 351861258957525704132700, 351990692261637093868500,
  352010738789587451652200, 352060918966074919206000, 352110863611506174900800, 352150535695328755828500, 352220766959433121320200,
  352420708863106753858900, 352581035050356976960700, 352640688540824094604700, 352650863611506174900800, 352660688540824094604700,
  352680535695328755828500, 352700766959433121320200, 352731035050356976960700, 352820722377898498751500, 352990860130371496034700,
  353020947264697523471200, 353131354508670206876400, 353200947264697523471200, 353280840050343546276900, 353300872319353256938400,
  353311226415285660669800, 353360628801347560146250, 353381155721235391441800, 353421178722878451638900, 353470982422420210177600,
  353520597490121518874100, 353551208647167936924700, 353591290323281589636800, 353631208647167936924700, 353701193564878963466200,
  353730665835079031070100, 353770999259987286038200, 353801118423270095074000, 353861071187335801254600, 354081208647167936924700,
  354120966972768101220800, 354130803327216125832200, 354220846244087199623400, 354241213409972835850000, 354261584767179506280900,
  354300862073577656952000, 354330721020977125562600, 354361151693845477647700, 354371109408160395644300, 354381515452461450286300,
  354410780883703727506000, 354421290323281589636800, 354431033828345843483200, 354631082379127421653200, 354651376823025338297200,
  354661584767179506280900, 354690934938964558637400, 354731307508307282302700, 354751065471494417259800, 354771173679793088949600,
  354801021288219189356000, 354860685548743288979600, 354880995879383672992800, 354911365044721772658900, 354920894895726073282000,
  354931211000217677944000, 354941446137743394291800, 354980782346430928423100, 355060839468946559734900, 355131285193952150881800,
  355190882302276460917200, 355271091319786193211700, 355310994777444148031600, 355331328272243760127200, 355420742588878845122900,
  355481235116423359632900, 355531180462052722825700, 355541258957525704132700, 355591011433051816506400, 355631446137743394291800,
  355651043157139285838800, 355661074780536723861000, 355751211000217677944000, 355760861061276893807000, 355781105188124946606700,
  355821085723920828407300, 355840984873523311612500, 355861132588321801376800, 355881584767179506280900, 355941076007545983042500,
  355981055940476436827200, 356091354508670206876400, 356110832041587568902400, 356131177013435115709000, 356160980029961601653100,
  356281087093805264223400, 356461474905950639470000, 356570573206119449593600, 356721126270431639223600, 356731328272243760127200,
  356761081723387367037300, 356860759861952089151700, 356911189642807648138100, 356950925462726092037000, 356960720896918624937400,
  357030832419048248931000, 357091376823025338297200, 357120862000929633415300, 357220748877118264116400, 357301191584616233848200,
  357311474905950639470000, 357331446137743394291800, 357341135903542533066900, 357450628801347560146250, 357460872319353256938400,
  357471226415285660669800, 357480934938964558637400, 357521178722878451638900, 357531474905950639470000, 357570982422420210177600,
  357580720896918624937400, 357591155721235391441800, 357600597490121518874100, 357620832041587568902400, 357680999259987286038200,
  357691208647167936924700, 357700742588878845122900, 357721290323281589636800, 357731211000217677944000, 357740665835079031070100,
  357751193564878963466200, 357761208647167936924700, 357770573206119449593600, 357800803327216125832200, 357821126270431639223600,
  357841208647167936924700, 357851118423270095074000, 357861071187335801254600, 357890846244087199623400, 357910966972768101220800,
  357930925462726092037000, 357970862073577656952000, 357990721020977125562600, 358020995879383672992800, 358050780883703727506000,
  358061173679793088949600, 358071151693845477647700, 358081515452461450286300, 358091109408160395644300, 358101584767179506280900]

def emitB25_10 : List Nat := [
  358121328272243760127200, 358131290323281589636800, 358141033828345843483200, 358161258957525704132700, 358201365044721772658900,
  358210685548743288979600, 358230894895726073282000, 358241211000217677944000, 358251021288219189356000, 358271307508307282302700,
  358280782346430928423100, 358291446137743394291800, 358310994777444148031600, 358320861061276893807000, 358341085723920828407300,
  358350862000929633415300, 358371285193952150881800, 358380839468946559734900, 358430882302276460917200, 358481091319786193211700,
  358510984873523311612500, 358531235116423359632900, 358541076007545983042500, 358551446137743394291800, 358561011433051816506400,
  358591132588321801376800, 358611043157139285838800, 358631191584616233848200, 358661105188124946606700, 358681055940476436827200,
  358741177013435115709000, 358750980029961601653100, 358771180462052722825700, 358781354508670206876400, 358811474905950639470000,
  358841087093805264223400, 358871328272243760127200, 358881446137743394291800, 358891081723387367037300, 358931189642807648138100,
  358941135903542533066900, 358950814466411258357100, 359051140502053857249200, 359100781012860994411200, 359111221008563533642300,
  359121515452461450286300, 359131584767179506280900, 359161028699016404728000, 359181051013371536149000, 359201049581366158674300,
  359301275662934170449200, 359370933741345453965900, 359441584767179506280900, 359460873534435035189600, 359471111147334666831200,
  359480897037572356538000, 359611062192512134960700, 359621211000217677944000, 359701138176367640822500, 359771376823025338297200,
  359871000994134789686800, 359881423823388262870700, 359970918071500263360100, 359981154360670185864000, 360000723498662218735100,
  360010596561218994030100, 360020760834236716101400, 360070884278980534994800, 360080601423124083871500, 360091113814159375047400,
  360101033021889859810100, 360111336276514527480900, 360120727959539333200100, 360151165801705303638300, 360191376823025338297200,
  360200741342552446749700, 360221280314935733938600, 360230855806127361164000, 360240692328166269364800, 360270757919640608021100,
  360280995879383672992800, 360291211000217677944000, 360310979323244879343800, 360321149096296837321600, 360331280314935733938600,
  360361204100930529248900, 360390450869503722659800, 360421008562041228263200, 360491376823025338297200, 360501515452461450286300,
  360510927120222601458400, 360620960739594989204000, 360640989442846077502500, 360660923832255189542700, 360670920128128021508000,
  360681052466181592440000, 360700915682951764424600, 360740698901882551431900, 360760775024549646559500, 360770975862691961596200,
  360841184033860983033800, 360901307508307282302700, 360920872641934181826800, 360930961916079147162500, 361011208647167936924700,
  361041140502053857249200, 361061027551776288504500, 361091336276514527480900, 361111082379127421653200, 361151099564153114319000,
  361181159917655301345000, 361191255183492905848000, 361231376823025338297200, 361250918071500263360100, 361261154360670185864000,
  361270723498662218735100, 361290760834236716101400, 361300596561218994030100, 361310727959539333200100, 361320923832255189542700,
  361330941956652237821100, 361340775024549646559500, 361350601423124083871500, 361360698901882551431900, 361371113814159375047400,
  361381033021889859810100, 361390884278980534994800, 361401280314935733938600, 361410872641934181826800, 361421165801705303638300,
  361431336276514527480900, 361441376823025338297200, 361451052466181592440000, 361461280314935733938600, 361480995879383672992800,
  361490741342552446749700, 361510692328166269364800, 361520979323244879343800, 361530757919640608021100, 361541149096296837321600,
  361551211000217677944000, 361561008562041228263200, 361591204100930529248900, 361631099564153114319000, 361640450869503722659800,
  361681376823025338297200, 361701515452461450286300, 361710915682951764424600, 361720975862691961596200, 361741159917655301345000,
  361750960739594989204000, 361800989442846077502500, 361821184033860983033800, 361841208647167936924700, 361861307508307282302700,
  361870961916079147162500, 361891255183492905848000, 361901027551776288504500, 361921140502053857249200, 361931336276514527480900,
  361941082379127421653200, 361951376823025338297200, 361960828603004947402900, 361981290323281589636800, 362051204100930529248900,
  362080694657767345424750, 362131354508670206876400, 362150756316756780431200, 362290819086170358243000, 362341020222489741957000,
  362350700059948249500150, 362491354508670206876400, 362551446137743394291800, 362591042272177758140600, 362640700059948249500150,
  362750883735992775557800, 362771238193589226308200, 362801295730003716664300, 362861255183492905848000, 362911354508670206876400,
  362941295730003716664300, 362991365044721772658900, 363000781856474044307250, 363050991277759944322000, 363101446137743394291800,
  363111235116423359632900, 363151182232010432765900, 363170773035933346083500, 363191068861649584828000, 363210832743723858818000,
  363280969281370104639000, 363301295730003716664300, 363321584767179506280900, 363350732808147904684900, 363391008877002118552800,
  363431162816408988670200, 363671081723387367037300, 363811313962159396059800, 363861344977652226443800, 363931584767179506280900,
  363940964109586833788200, 364101423823388262870700, 364201010146860452265500, 364261390176164600749500, 364481446137743394291800,
  364541446137743394291800, 364601376823025338297200, 364661376823025338297200, 364681376823025338297200, 364741162816408988670200,
  364761474905950639470000, 364811344977652226443800, 364891295730003716664300, 364931354508670206876400, 365230634810055064499400,
  365270949330175426545800, 365381193564878963466200, 365440949330175426545800, 365540640352492360416300, 365551144095254779855600,
  365560788316843151126000, 365570554940940562670600, 365621193564878963466200, 365750811223844256312000, 365941295730003716664300,
  366000916807260921842500, 366041178722878451638900, 366111290323281589636800, 366170893095677470920000, 366281008562041228263200,
  366290827465453901026200, 366361079781578781327000, 366371026794196907658700, 366451474905950639470000, 366490998404061946471000,
  366500794444498633207500, 366551280314935733938600, 366640889781534006203700, 366670976545288468636300, 366710898491388201140700,
  366741290323281589636800, 366760980503896138042700, 366771074780536723861000, 366781226415285660669800, 366810818051353974366000,
  366860841459644616422900, 367030956353763399200600, 367051226415285660669800, 367100640352492360416300, 367111144095254779855600,
  367120788316843151126000, 367131193564878963466200, 367160818051353974366000, 367180794444498633207500, 367190811223844256312000,
  367200956353763399200600, 367211295730003716664300, 367240916807260921842500, 367261178722878451638900, 367310827465453901026200,
  367330893095677470920000, 367350841459644616422900, 367391290323281589636800, 367411008562041228263200, 367440998404061946471000,
  367451026794196907658700, 367461474905950639470000, 367501079781578781327000, 367520976545288468636300, 367531280314935733938600,
  367550889781534006203700, 367561226415285660669800, 367571074780536723861000, 367580980503896138042700, 367601226415285660669800,
  367631178722878451638900, 367661006077441369610000, 367671515452461450286300, 367710916431084929653400, 367740671345681347611700,
  367761405591232583475400, 367770946585577765671000, 367791041394979150857000, 367811006077441369610000, 367821041394979150857000,
  367830946585577765671000, 367841235116423359632900, 367860559868147559119800, 367930733649667597213400, 367971280314935733938600,
  367980980029961601653100, 368010992609337541899400, 368021474905950639470000, 368051301445845100659100, 368070617902089243193600,
  368141215879234094887300, 368160614458830687140100, 368170889303293018182100, 368201208647167936924700, 368241065471494417259800,
  368251191584616233848200, 368270738261435806710000, 368280833069457045848700, 368291068288582113929400, 368300811881597121026600,
  368311290323281589636800, 368381307508307282302700, 368421280314935733938600, 368430975862691961596200, 368451344977652226443800,
  368481307508307282302700, 368550975636191298511000, 368570832743723858818000, 368610975862691961596200, 368641007935079926903700,
  368651165801705303638300, 368660987896423507744200, 368671122269898177853700, 368700932852450712241300, 368730828395212664844200,
  368741094983199511189700, 368771275662934170449200, 368790929802105282899800, 368801271217757913365900, 368821285193952150881800,
  368840850295274091313600, 368871258957525704132700, 368891191584616233848200, 368900663204541865738850, 368931280314935733938600,
  368950700002443935092100, 368960799639979795292400, 368990811881597121026600, 369101336276514527480900, 369130695602268241275200,
  369140738261435806710000, 369201161356529046555000, 369230825379395045769100, 369291474905950639470000, 369301226415285660669800,
  369351191584616233848200, 369380726319385684097400, 369390614458830687140100, 369411159917655301345000, 369420617902089243193600,
  369441390176164600749500, 369451320861446544755000, 369470659599755959364800, 369480980029961601653100, 369491068288582113929400,
  369510710286505766090900, 369531023819999987784800, 369561094983199511189700, 369581285193952150881800, 369600833069457045848700,
  369631280314935733938600, 369651023819999987784800, 369690987896423507744200, 369730854046948029807000, 369741226415285660669800,
  369781290323281589636800, 369830992609337541899400, 369840828395212664844200, 369860710286505766090900, 369881280314935733938600,
  369911022005068137217200, 369921206348216114454700, 369961065471494417259800, 370020733649667597213400, 370070825379395045769100,
  370111138176367640822500, 370271280314935733938600, 370301159917655301345000, 370341003653080208610900, 370380854248357966977000,
  370391515452461450286300, 370451226415285660669800, 370481376823025338297200, 370510877355497886544600, 370571083703650096655300,
  370661157100567604675200, 370700992877794078966100, 370890989963680588216200, 370951446137743394291800, 370960515062627603482250,
  371090854248357966977000, 371170777053515652435400, 371221344977652226443800, 371290785034497206471100, 371421446137743394291800,
  371451365044721772658900, 371541295730003716664300, 371591138176367640822500, 371680877355497886544600, 371941423823388262870700,
  371950991013558998038100, 371970870484439390118900, 372020727239839257004700, 372101206348216114454700, 372191390176164600749500]

def emitB25_11 : List Nat := [
  372211150386637320912400, 372261313962159396059800, 372281144095254779855600, 372301213409972835850000, 372311307508307282302700,
  372321061656317820822000, 372331042713679579052200, 372371074780536723861000, 372381295730003716664300, 372391036287486157215400,
  372400860059121047705200, 372471213409972835850000, 372511218411014893316100, 372551244647441340065300, 372571042713679579052200,
  372591047239338737864300, 372611320861446544755000, 372661280314935733938600, 372751290323281589636800, 372760995051792742606800,
  372901336276514527480900, 372910607110893610034700, 372921042713679579052200, 373001365044721772658900, 373121213409972835850000,
  373190938933351171801800, 373211067152206248897900, 373221084372548911734800, 373231084372548911734800, 373240855329449577398600,
  373250611473534372172000, 373260779251406324313000, 373270891132905922875900, 373290532651520314269200, 373361040525408454101500,
  373410836442737898895800, 373471150386637320912400, 373531474905950639470000, 373561313962159396059800, 373651515452461450286300,
  373691423823388262870700, 373851172053741001771600, 373891365044721772658900, 373921376823025338297200, 373931354508670206876400,
  373961051979562627322700, 373971244647441340065300, 374061159917655301345000, 374111065471494417259800, 374141328272243760127200,
  374281050533754309799800, 374311474905950639470000, 374381093501690932675700, 374401041394979150857000, 374571199752419335275000,
  374631135903542533066900, 374661280314935733938600, 374670958047124652144600, 374761123255127822155000, 374841195585149695218200,
  374851344977652226443800, 374921101935805776050800, 374961241368459057766100, 374991159917655301345000, 375040552583581525441000,
  375090791495076758086000, 375211162816408988670200, 375280997555400558739300, 375321376823025338297200, 375411446137743394291800,
  375441271217757913365900, 375501218411014893316100, 375551058498160615792300, 375590782150160011638200, 375611145322264039037000,
  375631390176164600749500, 375641313962159396059800, 375690895503015389072000, 375711446137743394291800, 375731295730003716664300,
  375751232131127044664600, 375861062731596998448300, 376041138176367640822500, 376061474905950639470000, 376100959962892055437900,
  376151223675388241858500, 376241033828345843483200, 376280675645285399448900, 376360939247323172268600, 376481017779087208228900,
  376561139332449880930100, 376571474905950639470000, 376591515452461450286300, 376641244647441340065300, 376660902656432280634400,
  376700872319353256938400, 376721199752419335275000, 376751005161404429743600, 376781376823025338297200, 376790799019100812027900,
  376831101935805776050800, 376941474905950639470000, 377070941312527627535500, 377091068861649584828000, 377201215879234094887300,
  377231096486987247643800, 377491075392159425604500, 377621244647441340065300, 377821063273603745382300, 377941112917292376771300,
  377981365044721772658900, 377991100348470860421700, 378041390176164600749500, 378060912986710003911700, 378111150386637320912400,
  378320915682951764424600, 378341271217757913365900, 378521262879597019460800, 378551127296081655942600, 378570881769888335642300,
  378581423823388262870700, 378601515452461450286300, 378641474905950639470000, 378771405591232583475400, 378911301445845100659100,
  379041258957525704132700, 379120912986710003911700, 379341110273966669955700, 379381131507230190955200, 379410639509137608142700,
  379560968646447336773200, 379641328272243760127200, 379691101935805776050800, 379971313962159396059800, 380000958618011074176700,
  380021271217757913365900, 380071285193952150881800, 380121000123302000508500, 380130906095484445772700, 380141218411014893316100,
  380151180462052722825700, 380240836442737898895800, 380251040525408454101500, 380301313962159396059800, 380341474905950639470000,
  380351150386637320912400, 380371423823388262870700, 380391515452461450286300, 380411065471494417259800, 380431328272243760127200,
  380451365044721772658900, 380461051979562627322700, 380470912986710003911700, 380481172053741001771600, 380491232131127044664600,
  380500675645285399448900, 380511354508670206876400, 380521376823025338297200, 380530958618011074176700, 380541076626743007834500,
  380551159917655301345000, 380561112917292376771300, 380571123255127822155000, 380621244647441340065300, 380650902656432280634400,
  380671135903542533066900, 380681474905950639470000, 380691168878871170313600, 380750906095484445772700, 380761195585149695218200,
  380771344977652226443800, 380781041394979150857000, 380801093501690932675700, 380810639509137608142700, 380821199752419335275000,
  380831050533754309799800, 380850958047124652144600, 380861280314935733938600, 381051301445845100659100, 381080791495076758086000,
  381090895503015389072000, 381121100348470860421700, 381131215879234094887300, 381151162816408988670200, 381191405591232583475400,
  381241159917655301345000, 381250997555400558739300, 381281241368459057766100, 381291446137743394291800, 381301127296081655942600,
  381331271217757913365900, 381340552583581525441000, 381360968646447336773200, 381380959962892055437900, 381420915682951764424600,
  381440782150160011638200, 381451063273603745382300, 381481138176367640822500, 381490941312527627535500, 381501223675388241858500,
  381521145322264039037000, 381531313962159396059800, 381551062731596998448300, 381561295730003716664300, 381601058498160615792300,
  381611390176164600749500, 381621446137743394291800, 381641474905950639470000, 381690799019100812027900, 381701199752419335275000,
  381711515452461450286300, 381771005161404429743600, 381781376823025338297200, 381791000123302000508500, 381801139332449880930100,
  381811017779087208228900, 381820872319353256938400, 381891244647441340065300, 381901075392159425604500, 381911033828345843483200,
  381921101935805776050800, 381931474905950639470000, 382031096486987247643800, 382081068861649584828000, 382091244647441340065300,
  382101515452461450286300, 382150912986710003911700, 382181285193952150881800, 382211150386637320912400, 382231365044721772658900,
  382241390176164600749500, 382281328272243760127200, 382301423823388262870700, 382311262879597019460800, 382360881769888335642300,
  382421164297917567184200, 382431258957525704132700, 382471313962159396059800, 382551131507230190955200, 382561110273966669955700,
  382621271217757913365900, 382630644563726004600700, 382710644563726004600700, 382720700738112597383540, 382750942930685912659800,
  382811097247447186165700, 382830705892591312467400, 382871154360670185864000, 382900893791851341799800, 382910847304277984386400,
  382961042713679579052200, 383071020931712572906300, 383091112917292376771300, 383120961719034748432700, 383131185868774849853400,
  383161405591232583475400, 383171301445845100659100, 383211044050002360269000, 383291079781578781327000, 383311067718780002465600,
  383321336276514527480900, 383341165801705303638300, 383460895097746344009700, 383481208647167936924700, 383561446137743394291800,
  383581255183492905848000, 383640577334502284175950, 383701515452461450286300, 383760700738112597383540, 383780942930685912659800,
  383811097247447186165700, 383820556448148564195600, 383831255183492905848000, 383841154360670185864000, 383860893791851341799800,
  383880847304277984386400, 383911092041810990560400, 383921042713679579052200, 383931041832616610836800, 383940961719034748432700,
  383951221008563533642300, 383971185868774849853400, 383981301445845100659100, 384001112917292376771300, 384011020931712572906300,
  384051044050002360269000, 384061405591232583475400, 384071584767179506280900, 384081165801705303638300, 384091079781578781327000,
  384141067718780002465600, 384151336276514527480900, 384171208647167936924700, 384200895097746344009700, 384221446137743394291800,
  384310758614534666634100, 384331251546728488760400, 384500818379453635933800, 384510768401561889437600, 384520737673198816403300,
  384530806195089852818500, 384540650674185338302400, 384590876933021550513700, 384630757051402263099900, 384641033021889859810100,
  384661320861446544755000, 384680879668234799476400, 384691147822394259578600, 384700760834236716101400, 384711126270431639223600,
  384720991013558998038100, 384751175332723284070700, 384761048637962935338300, 384770749135182923465600, 384800861566146339805000,
  384851255183492905848000, 384910831290913802527000, 384931255183492905848000, 384971052955180121859200, 384980695327580525637800,
  384990806195089852818500, 385001032621087720056300, 385040985620724795482600, 385051006077441369610000, 385060988409245144436200,
  385120737673198816403300, 385150991013558998038100, 385170934338362152616300, 385180832473087699043800, 385190991013558998038100,
  385200760834236716101400, 385250768401561889437600, 385341133681228854595900, 385380758614534666634100, 385420650674185338302400,
  385430925189128110149600, 385440862073577656952000, 385480987896423507744200, 385490985620724795482600, 385521126270431639223600,
  385531280314935733938600, 385551147822394259578600, 385560829543450750200700, 385670900712526577412100, 385680925189128110149600,
  385701006077441369610000, 385770862073577656952000, 385801126270431639223600, 385821116554056793858900, 385841116554056793858900,
  385900805079145227928600, 385921151693845477647700, 385931195585149695218200, 385960895097746344009700, 385971016069643872298800,
  385980606347466371800400, 385990963306369664061700, 386011226415285660669800, 386040936151100611872000, 386050960156502958124500,
  386061584767179506280900, 386071003056063509960400, 386130840987667339087600, 386170665896372321373950, 386191003056063509960400,
  386200746859190577620500, 386220844217613186333600, 386260836780766389778200, 386270805079145227928600, 386320831987780734136400,
  386340824626946047907500, 386420813657054322265000, 386460832797939094627000, 386470786833289980048100, 386491226415285660669800,
  386510508091461262977800, 386541021646001324144300, 386560670443322662736100, 386571515452461450286300, 386601295730003716664300,
  386630987896423507744200, 386651024186972876681200, 386691145322264039037000, 386751122269898177853700, 386781446137743394291800,
  386841029471221014119000, 386861112028397635046800, 386951021646001324144300, 386981584767179506280900, 387041232131127044664600,
  387060953412374878571400, 387120933147871901984500, 387131056446806632482000, 387171515452461450286300, 387280804832839684688800,
  387380679585833131486350, 387391262879597019460800, 387450869383799348396600, 387461262879597019460800, 387471336276514527480900]

def emitB25_12 : List Nat := [
  387480869383799348396600, 387500903093591446784000, 387521023819999987784800, 387531474905950639470000, 387540598620487178929300,
  387610907116480269062500, 387721071777308013973400, 387741052955180121859200, 387950920258082555716500, 387970998688557159694300,
  387991238193589226308200, 388011037120824313129800, 388081189642807648138100, 388161376823025338297200, 388191218411014893316100,
  388290913714868561038000, 388491050533754309799800, 388511037120824313129800, 388600996713880866210800, 388671238193589226308200,
  388761158499191802149200, 388870996713880866210800, 388891238193589226308200, 388921158499191802149200, 388931076626743007834500,
  388990714615904418994300, 389010977693406706031900, 389021446137743394291800, 389070977693406706031900, 389110926842058305270700,
  389130991542660761479800, 389140841223377524825700, 389170629289101681623550, 389180868993631081290200, 389201016749918604574200,
  389241142883118726621000, 389280746905125351051100, 389291059017642303502700, 389301584767179506280900, 389311280314935733938600,
  389360587788165327261800, 389401141685499621949500, 389570673516478343538900, 389601320861446544755000, 389680979793833983085000,
  389691086406517335447200, 389710817631087187216500, 389820946247739606508300, 389880739768735334002100, 389890795559337381469000,
  389901376823025338297200, 389910806319855932634000, 389951137033498058460200, 390000926150014020813300, 390031275662934170449200,
  390060726675291276602600, 390150807323628475985100, 390191208647167936924700, 390230915063754739632400, 390251102739022945777200,
  390271232131127044664600, 390281159917655301345000, 390290991542660761479800, 390300841223377524825700, 390330629289101681623550,
  390340868993631081290200, 390351016749918604574200, 390371059017642303502700, 390380807323628475985100, 390391280314935733938600,
  390411584767179506280900, 390421142883118726621000, 390440746905125351051100, 390451102739022945777200, 390460587788165327261800,
  390480979793833983085000, 390501320861446544755000, 390521141685499621949500, 390570817631087187216500, 390591086406517335447200,
  390621280314935733938600, 390630946247739606508300, 390640739768735334002100, 390661376823025338297200, 390671137033498058460200,
  390680806319855932634000, 390690795559337381469000, 390701232131127044664600, 390721275662934170449200, 390761208647167936924700,
  390791159917655301345000, 390800559949585113412700, 390941128332360359497200, 391081238193589226308200, 391101584767179506280900,
  391180559949585113412700, 391231128332360359497200, 391281238193589226308200, 391291584767179506280900, 391310694114287746829000,
  391340694114287746829000, 391350655197975598712200, 391380892502790358692000, 391441515452461450286300, 391510830970913529460000,
  391540781368906037958850, 391561320861446544755000, 391640921830854162536000, 391651173679793088949600, 391661032621087720056300,
  391711002462589957978900, 391731083703650096655300, 391771223675388241858500, 391780868217832000196300, 391801089891190468464000,
  391840890841784902130100, 391851178722878451638900, 391871120328089592143600, 391901515452461450286300, 391920827877613165581200,
  391941262879597019460800, 391951162816408988670200, 392011113814159375047400, 392080974064890732055500, 392191584767179506280900,
  392221584767179506280900, 392261584767179506280900, 392301147822394259578600, 392311251546728488760400, 392351170453706867127500,
  392370945575468167020700, 392431474905950639470000, 392531223675388241858500, 392551515452461450286300, 392621295730003716664300,
  392690892502790358692000, 392711584767179506280900, 392770830970913529460000, 392780781368906037958850, 392801032621087720056300,
  392811173679793088949600, 392820921830854162536000, 392841320861446544755000, 392851089891190468464000, 392871223675388241858500,
  392901002462589957978900, 392921083703650096655300, 392931178722878451638900, 392941515452461450286300, 392951120328089592143600,
  393001162816408988670200, 393011113814159375047400, 393020974064890732055500, 393041474905950639470000, 393051584767179506280900,
  393061251546728488760400, 393071295730003716664300, 393091170453706867127500, 393101584767179506280900, 393111147822394259578600,
  393140945575468167020700, 393151390176164600749500, 393180656808525034981100, 393210751680818183806500, 393361271217757913365900,
  393400697252447820945900, 393411515452461450286300, 393451226415285660669800, 393480977462726096240400, 393611092769086923468300,
  393760858434217758597200, 393771584767179506280900, 393781446137743394291800, 393810894593458840623500, 393851018124510695037600,
  393891023454368867473900, 393911354508670206876400, 393941101935805776050800, 394051336276514527480900, 394090970994474097657400,
  394231064917476379698300, 394371446137743394291800, 394380800854014678847500, 394391446137743394291800, 394491026042313666255800,
  394721405591232583475400, 394791208647167936924700, 394860918453909907200500, 394911153018368152649800, 394930944244333703196800,
  394981474905950639470000, 395011182232010432765900, 395091157100567604675200, 395111193564878963466200, 395141039235067970510700,
  395150987386218319354600, 395191185868774849853400, 395221056955713583229000, 395320697252447820945900, 395331515452461450286300,
  395341226415285660669800, 395350977462726096240400, 395370944244333703196800, 395391092769086923468300, 395401056955713583229000,
  395431354508670206876400, 395441018124510695037600, 395451446137743394291800, 395470858434217758597200, 395481023454368867473900,
  395491584767179506280900, 395500894593458840623500, 395510987386218319354600, 395531182232010432765900, 395541137033498058460200,
  395561157100567604675200, 395571474905950639470000, 395580970994474097657400, 395591336276514527480900, 395601101935805776050800,
  395641193564878963466200, 395671064917476379698300, 395681446137743394291800, 395690800854014678847500, 395701446137743394291800,
  395751026042313666255800, 395781208647167936924700, 395841153018368152649800, 395850918453909907200500, 395881185868774849853400,
  395920764985776284160700, 396001140502053857249200, 396061390176164600749500, 396071103548743969039000, 396081255183492905848000,
  396181474905950639470000, 396271266961796471486300, 396281320861446544755000, 396331474905950639470000, 396351232131127044664600,
  396360617353451575041100, 396371320861446544755000, 396381266961796471486300, 396400569471039596644100, 396611255183492905848000,
  396631313962159396059800, 396831223675388241858500, 396991121294280683317300, 397141121294280683317300, 397151180462052722825700,
  397170969920349914516100, 397191041832616610836800, 397291083703650096655300, 397400867218208143858700, 397451125255194492821800,
  397461074172632116222700, 397481085723920828407300, 397490976773859996721900, 397571320861446544755000, 397591320861446544755000,
  397611446137743394291800, 397640870247566006563700, 397700756746756178283300, 397911365044721772658900, 397991199752419335275000,
  398091320861446544755000, 398221199752419335275000, 398251178722878451638900, 398511423823388262870700, 398531215879234094887300,
  398540827157445443969800, 398811033021889859810100, 398821028315138774011600, 398991328272243760127200, 399051248037596507633400,
  399081130437701279280400, 399111258957525704132700, 399121158499191802149200, 399141301445845100659100, 399201290323281589636800,
  399331150386637320912400, 399351405591232583475400, 399451376823025338297200, 399711150386637320912400, 399731390176164600749500,
  399851280314935733938600, 399861178722878451638900, 399931266961796471486300, 399951113814159375047400, 399981474905950639470000,
  400081229232373357339500, 400091307508307282302700, 400181344977652226443800, 400201275662934170449200, 400221280314935733938600,
  400230979088778183418500, 400241271217757913365900, 400551155721235391441800, 400561151693845477647700, 400600756746756178283300,
  400631199752419335275000, 400651365044721772658900, 400691320861446544755000, 400711199752419335275000, 400721151693845477647700,
  400771178722878451638900, 400811215879234094887300, 400911423823388262870700, 400920827157445443969800, 400951271217757913365900,
  400981280314935733938600, 400991266961796471486300, 401001033021889859810100, 401011150386637320912400, 401041028315138774011600,
  401071150386637320912400, 401101301445845100659100, 401131248037596507633400, 401141130437701279280400, 401151258957525704132700,
  401181290323281589636800, 401191328272243760127200, 401201158499191802149200, 401321155721235391441800, 401351376823025338297200,
  401381405591232583475400, 401401178722878451638900, 401431390176164600749500, 401481474905950639470000, 401491229232373357339500,
  401501307508307282302700, 401511113814159375047400, 401531446137743394291800, 401561280314935733938600, 401571275662934170449200,
  401580979088778183418500, 401591344977652226443800, 401650845440870029897000, 401790916556319761300000, 401801123255127822155000,
  401821251546728488760400, 401981258957525704132700, 401991201903039857371300, 402010941956652237821100, 402131167328452516717000,
  402190939562284062558300, 402211515452461450286300, 402231275662934170449200, 402321000994134789686800, 402391285193952150881800,
  402511034641358451808200, 402551033828345843483200, 402751206348216114454700, 402841285193952150881800, 402851064917476379698300,
  402981154360670185864000, 403061280314935733938600, 403721161356529046555000, 403861241368459057766100, 404030895300175562932700,
  404071405591232583475400, 404091446137743394291800, 404221515452461450286300, 404311515452461450286300, 404401584767179506280900,
  404411072967798264605400, 404421232131127044664600, 404691251546728488760400, 404741051979562627322700, 404781328272243760127200,
  404790845440870029897000, 404810844217613186333600, 404821251546728488760400, 404831123255127822155000, 404851405591232583475400,
  404860941956652237821100, 404881201903039857371300, 404891258957525704132700, 404921251546728488760400, 404931000994134789686800,
  404971275662934170449200, 404981515452461450286300, 404990939562284062558300, 405011167328452516717000, 405031446137743394291800,
  405041285193952150881800, 405091033828345843483200, 405101328272243760127200, 405111034641358451808200, 405131206348216114454700,
  405171064917476379698300, 405201285193952150881800, 405221280314935733938600, 405241154360670185864000, 405421241368459057766100,
  405481161356529046555000, 405501051979562627322700, 405510895300175562932700, 405531515452461450286300, 405541515452461450286300]

def emitB25_13 : List Nat := [
  405561584767179506280900, 405571232131127044664600, 405601072967798264605400, 405651003354126323774200, 405720919868724503803200,
  405730803691367853345200, 405750979323244879343800, 405781280314935733938600, 405871189642807648138100, 405941088482716480290200,
  405991180462052722825700, 406051070017731824935600, 406130875926301638741300, 406140875926301638741300, 406171266961796471486300,
  406321266961796471486300, 406350821091968262703000, 406381016409202772412700, 406430631539286195675400, 406440631539286195675400,
  406531354508670206876400, 406541123255127822155000, 406551060064772290232100, 406570690691166017442450, 406601320861446544755000,
  406641423823388262870700, 406671354508670206876400, 406691344977652226443800, 406700843430445936756900, 406721193564878963466200,
  406800762297223309557400, 406921024186972876681200, 407031515452461450286300, 407151515452461450286300, 407181258957525704132700,
  407230891132905922875900, 407361027932729130171200, 407381344977652226443800, 407481251546728488760400, 407511301445845100659100,
  407561295730003716664300, 407611295730003716664300, 407630787658604155720200, 407661106018005228076200, 407781020576472412469500,
  407791170453706867127500, 407831241368459057766100, 407841020576472412469500, 407851241368459057766100, 407860988409245144436200,
  407931515452461450286300, 407991275662934170449200, 408011344977652226443800, 408181208647167936924700, 408310988409245144436200,
  408351275662934170449200, 408361344977652226443800, 408371515452461450286300, 408431208647167936924700, 408450743761847920447500,
  408481584767179506280900, 408570743761847920447500, 408601029471221014119000, 408631029471221014119000]

def emitB27_0 : List Nat := [
  199680844202277088082900, 199690529149796895379700, 199711085121759893313300, 199750640930190702177100, 199770845332232613476400,
  199780745628983028457350, 199811252519403250480500, 199900731753103422489900, 199920734904429993097500, 199950803281934066205800,
  199960561643925318958500, 199991079059297711669900, 200021079059297711669900, 200050629471258492632300, 200130800340545545576500,
  200160752124772655934600, 200250684274869523673500, 200290840887056356392800, 200351293065914061296900, 200371183204685194486000,
  200401113889967138491400, 200411362380632117291400, 200431032796945516858500, 200440607419715601838300, 200480665307624302938900,
  200520646841001927618000, 200601132122122817886900, 200610862659404740880000, 200640814316739783092400, 200701048831210524376400,
  200801053276386781459800, 200940700240066940878000, 201021057928388344949200, 201080909120682801965800, 201100526936738105810300,
  201130640562948276950700, 201151029160181099771000, 201160899883350788864400, 201170790349454456550300, 201220675791524628947650,
  201260675791524628947650, 201301015807041837318700, 201340959845463043776400, 201361098474899155765500, 201610737769955569135200,
  201670851181853281637200, 201700789370653819934000, 201710922935716650047600, 201740684048112056895400, 201790867504643079474600,
  201840817706894950660500, 201891057928388344949200, 201950729765684801781600, 201960993492686705897800, 201971062807404761892400,
  202020901863613518482400, 202080864019969946457800, 202100799259453935154900, 202131183204685194486000, 202190597602027573198200,
  202340608797585837454800, 202370724029968628890900, 202390700240066940878000, 202620800703522350634400, 202710619487912637064200,
  202850851786084727233500, 202940792002384651671300, 203010912399665084264900, 203041098474899155765500, 203070771030331553464400,
  203080754158741079646900, 203090577799881853511000, 203120973198602306228700, 203130667394986617214200, 203190780967578934784800,
  203290798545165183916900, 203580796781451035306200, 203650709438748291068900, 203670938969981657565500, 203810817276786760721500,
  203990620023787691374700, 204261057928388344949200, 204450724707937327428700, 204460772665245353617400, 204490711951814763626900,
  204620730664163442563100, 204890867504643079474600, 204931122591104837454300, 205050883631457839087000, 205220811037757500793300,
  205230800703522350634400, 206130674960782571962000, 206250770222790152909900, 206480789370653819934000, 206581040493049630471300,
  207111079059297711669900, 207360901863613518482400, 207860789370653819934000, 208010914646950669470900, 208030624105987143400300,
  208090799618520748227700, 208110621527575427828800, 208260831060034213112800, 208390785861521838807000, 208400710761324512995100,
  208440599334505938928800, 208480657628909981561900, 208510592941351854349300, 208520991023425446860700, 208541362380632117291400,
  208590710465903323251900, 208640859336839978047900, 208690785861521838807000, 208721122591104837454300, 208730822112893930063600,
  208920729586953744371950, 209080931974122796874500, 209110519151763684712100, 209120856756051582460600, 209170931974122796874500,
  209190726596405466481500, 209241098474899155765500, 209400728875206967485600, 209570933334688002452300, 209610872596652122200400,
  209640582077967754069800, 209750715300681739031300, 209770715300681739031300, 209930914646950669470900, 209991223751196005302300,
  210090811847478524055300, 210150721692633510360000, 210160396264513936777000, 210180949667193612782300, 210210843084947028270400,
  210290749912293027871000, 210330634794172062638200, 210350749912293027871000, 210731293065914061296900, 210830949667193612782300,
  211290396264513936777000, 211331293065914061296900, 211520627973347059984800, 211621293065914061296900, 211691044575249082496900,
  211710731935751875093300, 211870998622016144652800, 212131223751196005302300, 212140731935751875093300, 212371044575249082496900,
  212460845902034724940100, 212530696195158062760400, 212700789370653819934000, 212710612826437728865900, 212810889641850246057300,
  213060863337373439417800, 213120863337373439417800, 213150896984597101539200, 213220905945812970507800, 213260560814870661557500,
  213310753023655112777900, 213330650822419498846100, 213350591854384630659000, 213380659294884505679400, 213400790349454456550300,
  213420864019969946457800, 213440754158741079646900, 213450610465636350309100, 213460573247556351102600, 213550677474003853945700,
  213600796432410541329400, 213610881978527643965800, 213640882801577557617300, 213710882801577557617300, 213750882801577557617300,
  213820750350890222196400, 213850881162196580049800, 213891098474899155765500, 214011098474899155765500, 214070703763466631823900,
  214260881162196580049800, 214481183204685194486000, 214510981714383140259500, 214520675895854320205400, 214740803281934066205800,
  214760594965339989124000, 214880921708707390866200, 214900574149140219264700, 214940540017914536743200, 214960558078543587463200,
  215130603244927447436400, 215160793683096483309500, 215171132122122817886900, 215180769156113372490400, 215200975260531026502300,
  215210614507149560503900, 215250568536077000812600, 215311223751196005302300, 215470870382539534479000, 215480944941905127727800,
  215550423448329366829150, 215560423448329366829150, 215700568536077000812600, 215761201436840873881500, 215921132122122817886900,
  216080474210891470361150, 216280736805627941954700, 216440557853860456511200, 216880806312469015738700, 216971201436840873881500,
  217040631392483534812800, 217291132122122817886900, 217330861986001522745600, 217760483918478633216400, 218300687621979434359900,
  218390929307298088658300, 218801362380632117291400, 219320646841001927618000, 219340650822419498846100, 219470854863250593908800,
  220250615130557643535600, 220301362380632117291400, 220631362380632117291400, 221960629471258492632300, 222351073343456327675000,
  222690639687030267962500, 222700977365871946285700, 222781053276386781459800, 222830639687030267962500, 222911053276386781459800,
  222940977365871946285700, 223031067936734200647400, 223070965351440762079300, 223200774327333477221400, 223381067936734200647400,
  224670676419141751871200, 225211293065914061296900, 225220761009116513011300, 225810926709749448332300, 226120724707937327428700,
  226150813074487783236700, 226220744378966752034200, 226960727466732979311600, 227630707272598612951000, 227810755769823106916700,
  227990539857099707124600, 228100787441333526466100, 228121015807041837318700, 228180844202277088082900, 228230602942507862109800,
  228250640051064161060000, 228260629865736321733900, 228650971178331574476800, 228740854863250593908800, 228850583766988338984300,
  228870583766988338984300, 228990941911370178195000, 229140946492323781324400, 229370822112893930063600, 229551132122122817886900,
  229821362380632117291400, 230020631392483534812800, 230040659029983688521700, 230200861986001522745600, 230410965351440762079300,
  230440835080676260916700, 230591293065914061296900, 231050835080676260916700, 232151132122122817886900, 233481105885696371137800,
  233760578941401826247850, 233800555854111227518200, 233850450601993080734000, 233891167789617211760000, 233910627200645211513800,
  233950720055935763939500, 233960844202277088082900, 234030450601993080734000, 234250650174643954377200, 234310716077686425224400,
  234321252519403250480500, 234330545645433411684400, 234350437790577379818100, 234360910201774412387400, 234430936112644413160000,
  234470606999546916468300, 234480686107681424103500, 234510840345049609459000, 234520899883350788864400, 234530494483447419405200,
  234590613048907231077000, 234620867504643079474600, 234670648335327807175600, 234700648335327807175600, 234720818138861065112000,
  234780825316829304525300, 234810735471003746665300, 234860850581250875616000, 234870760035872821188200, 234921085121759893313300,
  234941040493049630471300, 234950821663454971279500, 235000683034018859290500, 235060810234540331066800, 235270650174643954377200,
  235420494483447419405200, 235470744793905106715300, 235510755769823106916700, 235530616331601534757740, 235610745419558868145900,
  235630744793905106715300, 235670481439137726286400, 235690883631457839087000, 235720666821371277661700, 235780666821371277661700,
  235880670511110215244300, 236090757643414212663700, 236120666156285690670800, 236210691816722631291200, 236240766022697755446800,
  236370848214276467025400, 236480873345719295116000, 236650586932477370253200, 236970829108752790754600, 237071223751196005302300,
  237131122591104837454300, 237310668649223994923300, 237361154436477949307800, 237981223751196005302300, 238280706419108367967200,
  238790926709749448332300, 240131293065914061296900, 240290792336274778222800, 240340848800788412265200, 240371293065914061296900,
  240380596227923981439700, 240390713917108553766200, 240400689997388035170600, 240410813900938768226000, 240430836631094914513300,
  240520577058993301684300, 240651293065914061296900, 240661362380632117291400, 240670554635917184171600, 240690797835942352967700,
  240720597649748881667600, 240760671405303952810400, 240850668455237513140700, 240930729052669303322400, 241010797835942352967700,
  241070597649748881667600, 241090866797926357165400, 241200655904729338111300, 241631293065914061296900, 241780768100694604621400,
  241790601692178995328500, 241800922935716650047600, 241840763484490428305100, 241850768100694604621400, 241870983961668725465300,
  241880844202277088082900, 241910657715904332415850, 241960636609864401287150, 241981154436477949307800, 242110690117652631746650,
  242120781566383119247100, 242220673727467864240400, 242311223751196005302300, 242350690117652631746650, 242470587190098809430500,
  242491183204685194486000, 242540886163238637515800, 242650845902034724940100, 242750951293245699960400, 242780732118734542801000,
  242910657715904332415850, 243100722687666595676900, 243111293065914061296900, 243140892332595538049800, 243390767838571256634000,
  243430709292869344702900, 243440748176891558555800, 243520369694409732033600, 243580993492686705897800, 243730369694409732033600,
  243750787760313063276100, 243780787760313063276100, 244020838205930611327200, 244290620562549844612650, 244600769156113372490400,
  244640485461004976191400, 244780684048112056895400, 245030630063560322944500, 245150798545165183916900, 245181029160181099771000,
  245350943415157914648900, 245441293065914061296900, 245650979516492468381900, 245710965351440762079300, 245760735471003746665300]

def emitB27_1 : List Nat := [
  246050789370653819934000, 246800954626887726719500, 246810780372339082055260, 246881293065914061296900, 247011022260893951076000,
  247960901863613518482400, 248000638459134739310900, 248181022260893951076000, 248581122591104837454300, 248590681146122699543600,
  249040708133436066611000, 249100926709749448332300, 249170721857786314207300, 249350592260614031546900, 249501154436477949307800,
  250141029160181099771000, 250330781566383119247100, 250790735471003746665300, 250960710761324512995100, 251020832548895462487900,
  251040625609774879854400, 251120762486975922623200, 251140788723402369372300, 251360762486975922623200, 251400630195660738455800,
  251420996024467504326900, 251430996024467504326900, 251510725048653159590200, 251530998622016144652800, 251600881162196580049800,
  251651025651049118644100, 251660991023425446860700, 251760691939196620880700, 251960827194818769684800, 252060839805964745971400,
  252150772940348690806400, 252400871853154273448500, 252890619606748064002100, 252990765765958204922300, 253070777448154122605600,
  253081113889967138491400, 253431183204685194486000, 253910928000089931923000, 254631201436840873881500, 254840838736435834296600,
  255050809041683244539400, 255060755306859317042440, 255141362380632117291400, 255620827194818769684800, 255811105885696371137800,
  257050971178331574476800, 257461079059297711669900, 258050798189925023480100, 259030802909494157107600, 259420894167509404869400,
  259640727292060445817500, 259910584685191785047300, 259951223751196005302300, 260111362380632117291400, 260310529825801401151600,
  260320797131714090426400, 260410584853047468605200, 260440857395031392337800, 260450686687393192536100, 260800859336839978047900,
  260850805928591385022100, 260891293065914061296900, 260931362380632117291400, 261020755538073292880400, 261030833553929047838000,
  261060930631820763660400, 261140963482227460864000, 261181154436477949307800, 261240756234940224489800, 261260535353720973629000,
  261310614225061926339850, 261411362380632117291400, 261430871853154273448500, 261440993492686705897800, 261490749475611111237000,
  261740866797926357165400, 261770775733826423961800, 261780755538073292880400, 261850687974713486156700, 261870687974713486156700,
  261910877177605725329800, 261950725219447394105800, 262220650174643954377200, 262230674960782571962000, 262340747533802525526800,
  262741004028738271680500, 262801079059297711669900, 262920799978881498557650, 263130725219447394105800, 263360833553929047838000,
  263540730303802692233200, 263561132122122817886900, 263601048831210524376400, 263610490285629224265750, 263640775733826423961800,
  263660642936947007258000, 263760940429861599680800, 263770741320624414826100, 263811113889967138491400, 263950710171352300276200,
  263971105885696371137800, 264080647388948504080550, 264120867504643079474600, 264170483186433271679600, 264200821663454971279500,
  264290998622016144652800, 264350662895633533984350, 264410988613670288954600, 264460333379865569639430, 264491079059297711669900,
  264600585823724007559800, 264630881978527643965800, 264690796781451035306200, 264720427353010889921500, 264770556105842008656000,
  264800770222790152909900, 264810561643925318958500, 264940701850840022471300, 265190512538828508301150, 265240954626887726719500,
  265750718126615470471600, 265970689997388035170600, 266070713308278667040800, 266110631727492223341000, 266120715146002667201400,
  266470852393989334871600, 266840618131359837847400, 266860902868647103832500, 266900719408684313377700, 267041142658174383669600,
  267050687036840257513500, 267070740123005310154600, 267251091575612007070400, 267530540098419035925500, 267570609064751371735200,
  267900844202277088082900, 267991044575249082496900, 268620857395031392337800, 268930900868580433165500, 269540427353010889921500,
  269700615016921267670800, 270040820327132190062800, 270540666630895029596400, 271380665307624302938900, 271460771572338300398400,
  271550820327132190062800, 271781167789617211760000, 271851154436477949307800, 271920821663454971279500, 272111091575612007070400,
  272241293065914061296900, 272431167789617211760000, 272640948067159478138200, 273871154436477949307800, 274020662895633533984350,
  274100902868647103832500, 274310636469019307581350, 274681362380632117291400, 274720636469019307581350, 274900959845463043776400,
  274910892332595538049800, 274930826722004650090300, 274940545872706236784650, 275110750350890222196400, 275120838205930611327200,
  275711293065914061296900, 275730710613504826064000, 275750686107681424103500, 275950967256260259148700, 275970723524491562728500,
  276040699708857192389000, 276050757880100713690300, 276110589715265632527200, 277000653539754249751950, 277040769955052375838300,
  277210597126062847899300, 277410667586925255794600, 277430617430831579006500, 277440865399302159691400, 277480642786909469734500,
  277540646063393032627250, 277620881978527643965800, 277790686920222168495300, 277840619369218261111400, 278010578664667117124000,
  278031085121759893313300, 278270764239210991843400, 278410931974122796874500, 278610669624841489459750, 278740705432490075861900,
  278861183204685194486000, 278880663816450353370600, 279010865399302159691400, 279310733223718161459500, 279411293065914061296900,
  279460580779248201388700, 279730963482227460864000, 279821113889967138491400, 280060808254277601448800, 280140996024467504326900,
  280230597840862174428100, 280340813074487783236700, 280851036570978315143200, 281470946492323781324400, 281491252519403250480500,
  281540963482227460864000, 281650764745541187498100, 281701252519403250480500, 281920928000089931923000, 281931201436840873881500,
  282010623486022355447700, 282160783384615027566200, 282510979516492468381900, 282710642786909469734500, 283250877961923471432300,
  283310623486022355447700, 283690822112893930063600, 283730838205930611327200, 283850699444306773546600, 283921142658174383669600,
  284150699444306773546600, 284220886163238637515800, 284500597126062847899300, 285040658941839125741200, 285800865399302159691400,
  286010938969981657565500, 286251252519403250480500, 286391113889967138491400, 286540944941905127727800, 286571142658174383669600,
  287121252519403250480500, 287791252519403250480500, 287890705995079464078700, 288790607419715601838300, 289091362380632117291400,
  289610859336839978047900, 289660741723039444798700, 290660673421501281844800, 290811105885696371137800, 291051362380632117291400,
  291410646762968369229900, 292330681146122699543600, 292460666821371277661700, 292551053276386781459800, 292750562614319415281400,
  292790781867135225642600, 292870780967578934784800, 293050657455147991707800, 293800739332487359443300, 293991091575612007070400,
  294201001288840852869000, 295441001288840852869000, 295720574565098466959100, 295770565306593116581900, 295790349342226845326960,
  295950723861192217518900, 296770738939559545454300, 297021004028738271680500, 297561122591104837454300, 297900757407286594095700,
  298011252519403250480500, 298020723861192217518900, 298651223751196005302300, 298981122591104837454300, 299260678219084469532250,
  299560832548895462487900, 299760717018132228022300, 299830711206099152818700, 300000538210316144309600, 300010680052019881722700,
  300030710761324512995100, 300101293065914061296900, 300211004028738271680500, 300500757880100713690300, 301961032796945516858500,
  303330474294271130555900, 303341201436840873881500, 303430915789820251833000, 303820685187076533331200, 304100727466732979311600,
  304220737190243800702600, 304240817706894950660500, 304270670511110215244300, 304360817706894950660500, 304390573247556351102600,
  304560723692700181027000, 304600867504643079474600, 304950768100694604621400, 306550827669879045544700, 306990965351440762079300,
  307030965351440762079300, 307070548670293153361300, 308870830079634203450600, 310410812663809587971300, 310620695430823131503600,
  310690781266532819621400, 310700759072009937411350, 310771057928388344949200, 311030823473459135641400, 311080823473459135641400,
  311190639179598950815600, 311610795048305400142200, 311681057928388344949200, 311790702393582196007800, 311810762735423255389400,
  311850644755178915577100, 312060509448694995883700, 312430668552183715595500, 312780762735423255389400, 312920991023425446860700,
  313020666821371277661700, 313540747533802525526800, 313980714837360446882500, 314310714837360446882500, 314350727816996034431900,
  314560673319720102574800, 314610628102713184106900, 314711029160181099771000, 314811142658174383669600, 314820954626887726719500,
  315051079059297711669900, 315150910201774412387400, 315260835594816210958600, 315321057928388344949200, 316011362380632117291400,
  316160781266532819621400, 316490715610759506856100, 316840605284773800390400, 317770781266532819621400, 318210944941905127727800,
  318590673931966913013200, 319030854240195618845100, 319640819446069221847400, 320000702666061928626300, 320041098474899155765500,
  320050588097036574216600, 320130659206506240978650, 320340635488619297919300, 320430704455510916281400, 320481154436477949307800,
  320571223751196005302300, 320660842530928990708900, 320800937531107912355600, 321470771844447311834400, 321600819008431761867500,
  321661098474899155765500, 321730688446969381574100, 321861362380632117291400, 322411293065914061296900, 322440880352475556787800,
  323260874860899797176300, 323960797483208301170900, 324180588097036574216600, 324221098474899155765500, 324260702666061928626300,
  324350659206506240978650, 324510880352475556787800, 324541154436477949307800, 324560842530928990708900, 324611223751196005302300,
  324630771844447311834400, 324670937531107912355600, 324930797483208301170900, 324941362380632117291400, 325000688446969381574100,
  325110819008431761867500, 325291293065914061296900, 325540874860899797176300, 325990478221347436973300, 326450478221347436973300,
  326500805928591385022100, 326540706987291714710300, 326811362380632117291400, 327010925435846870589400, 327031091575612007070400,
  327050749475611111237000, 327220814316739783092400, 327350878752441422143700, 327360787123368234728100, 327450986260620547935200,
  327690525372199479489000, 327711085121759893313300, 327841044575249082496900, 328220656935666303997400, 328310784925477562850650,
  328340806697825947337700, 328540965351440762079300, 328620679617708667006200, 328860806697825947337700, 328930944941905127727800,
  329180630063560322944500, 329430930631820763660400, 329881223751196005302300, 329930477214289580613700, 329970824852791348874900]

def emitB27_2 : List Nat := [
  330210780076042568989600, 330670946492323781324400, 330730946492323781324400, 331501044575249082496900, 332550881162196580049800,
  332880991023425446860700, 332931293065914061296900, 332980762735423255389400, 333911362380632117291400, 334060629668302891362150,
  334261362380632117291400, 334460819885630369151200, 334540941911370178195000, 334570627779611125962200, 334631183204685194486000,
  334850807084673625129800, 334870565203019829228650, 334890874100439858654400, 334950761745316157118200, 335030993492686705897800,
  335090741723039444798700, 335210720870936200131900, 335381142658174383669600, 335390605284773800390400, 335410796781451035306200,
  335930827669879045544700, 336000778316466379951600, 336060769955052375838300, 336091362380632117291400, 336100769955052375838300,
  336350666630895029596400, 336551183204685194486000, 336591252519403250480500, 336740636609864401287150, 336780828626824147159600,
  336881073343456327675000, 337070636187922847016400, 337130910201774412387400, 337211252519403250480500, 337331142658174383669600,
  337750560814870661557500, 337781142658174383669600, 338020910201774412387400, 338310663816450353370600, 338320586333929195949400,
  338360640930190702177100, 338650540017914536743200, 338830729765684801781600, 338910563255239133271600, 339310557629681019149300,
  339450643087209995711500, 339670996024467504326900, 339700686687393192536100, 339800807084673625129800, 339950737190243800702600,
  340130620863121155962000, 340150763735431588847650, 340280868216389856361000, 340740969198068844858800, 340810630991948953945200,
  340830557629681019149300, 341061122591104837454300, 341570663816450353370600, 341800803281934066205800, 341860763735431588847650,
  342030610194706897128500, 342170586333929195949400, 342530620863121155962000, 342550807862887669335300, 342760853005612036615300,
  342981122591104837454300, 343091252519403250480500, 343100819885630369151200, 343110565203019829228650, 343490657628909981561900,
  343821293065914061296900, 343980794022655383423300, 344251362380632117291400, 347010823931125838382500, 348920840887056356392800,
  349070677474003853945700, 349130865399302159691400, 349150776302009770704900, 349450533225981128900500, 350320804407649518669200,
  350410765509876118754900, 350481362380632117291400, 350600760035872821188200, 350980798901671800366500, 351990523649405061119700,
  352030983961668725465300, 352191154436477949307800, 352581223751196005302300, 352640875627187071733300, 352660875627187071733300,
  352691154436477949307800, 352731223751196005302300, 352990688092568538101200, 353280704733675212469000, 353360795048305400142200,
  353701223751196005302300, 353770650013353596830700, 353901122591104837454300, 354330899883350788864400, 354490684958243481530000,
  354860944941905127727800, 355270847631184435946100, 355741006845825968350100, 355760588662624333828400, 355820827669879045544700,
  356130583476591951543800, 356740707129843413832500, 357450795048305400142200, 357680650013353596830700, 357751223751196005302300,
  357990899883350788864400, 358210944941905127727800, 358320588662624333828400, 358340827669879045544700, 358480847631184435946100,
  358521006845825968350100, 358740583476591951543800, 358850707129843413832500, 358950668455237513140700, 359100934714020215686000,
  359200752124772655934600, 359970609816634613137900, 359980983961668725465300, 360020759794034734760000, 360231053276386781459800,
  360270636328372308306200, 360320672307565712774200, 360331113889967138491400, 360400491797821090613050, 360510850581250875616000,
  360840768891212555332700, 360930834569166194239800, 361250609816634613137900, 361260983961668725465300, 361290759794034734760000,
  361461113889967138491400, 361530636328372308306200, 361540672307565712774200, 361580491797821090613050, 361820768891212555332700,
  361870834569166194239800, 361960981714383140259500, 362030672610137804427900, 362130464149642208433600, 362291362380632117291400,
  362340781867135225642600, 362490464149642208433600, 363350713917108553766200, 365540716390186679537950, 365620849984234176965500,
  367100716390186679537950, 367130849984234176965500, 367630729944735879160300, 367640878752441422143700, 367670866797926357165400,
  367860729586953744371950, 367930748176891558555800, 367980679834628491760800, 368070792671283466751000, 368140884468282806138500,
  368241223751196005302300, 368271201436840873881500, 368280919298952232960000, 368300664001635591478000, 368310959845463043776400,
  368420557629681019149300, 368681113889967138491400, 368900666061633530267700, 368990664001635591478000, 369111032796945516858500,
  369130474210891470361150, 369141201436840873881500, 369201362380632117291400, 369351362380632117291400, 369380783384615027566200,
  369420792671283466751000, 369470763484490428305100, 369480679834628491760800, 369600919298952232960000, 369780959845463043776400,
  369961223751196005302300, 370020748176891558555800, 370110557597696371507300, 370211015807041837318700, 370260729586953744371950,
  370270589671183639307300, 370301362380632117291400, 370360815997451614730500, 370401085121759893313300, 370410745002021727097750,
  370441183204685194486000, 370450646919096425925200, 370481029160181099771000, 370490701176528633982250, 370570819885630369151200,
  370601293065914061296900, 370631183204685194486000, 370700762239144321176450, 370711293065914061296900, 370730546328807369540900,
  370791073343456327675000, 370841183204685194486000, 370850660719663727869600, 370871293065914061296900, 370940975260531026502300,
  371010497804402896196900, 371170731935751875093300, 371220727641711151690450, 371380701176528633982250, 371400815997451614730500,
  371540958075505333836500, 371590557597696371507300, 371650546328807369540900, 371781015807041837318700, 371901022260893951076000,
  371920975260531026502300, 372570921708707390866200, 373190809041683244539400, 373220811037757500793300, 373230811037757500793300,
  373240765509876118754900, 373261113889967138491400, 373290448625171892238500, 373801154436477949307800, 373970965351440762079300,
  374280889641850246057300, 375040573472191413740000, 376660553371053799195500, 379120717967506447247400, 379410694420713532853200,
  380470717967506447247400, 380611154436477949307800, 380620965351440762079300, 380650553371053799195500, 380810694420713532853200,
  380830889641850246057300, 381340573472191413740000, 382630833553929047838000, 382710833553929047838000, 382720782471366671238800,
  382780815997451614730500, 382920849390760624984200, 383171006845825968350100, 383310674034373475982200, 383570937531107912355600,
  383640592941351854349300, 383661006845825968350100, 383700866797926357165400, 383760782471366671238800, 383790815997451614730500,
  383820929307298088658300, 383890849390760624984200, 383950679617708667006200, 383981006845825968350100, 384140674034373475982200,
  384250937531107912355600, 384261006845825968350100, 384460644831660754869200, 384510650741217707944900, 384520718285978053999400,
  384630467509048732922300, 384700563900293143850800, 384720413590997304396000, 385120718285978053999400, 385150413590997304396000,
  385180670907542845435200, 385200563900293143850800, 385250650741217707944900, 385340720870936200131900, 385390695304000032704000,
  385511057928388344949200, 385930815153564750144000, 385970777160384139844050, 386050855490211895268300, 386101073343456327675000,
  386170675895854320205400, 386320777736754611519000, 386340703763466631823900, 386420640562948276950700, 386470591449798778704600,
  386690617082399170745400, 387280705995079464078700, 387380707845666083849500, 387420855490211895268300, 387450769156113372490400,
  387480769156113372490400, 387501252519403250480500, 387710886163238637515800, 387990813900938768226000, 388161029160181099771000,
  388590678647350648732300, 388670547247298327248200, 388761223751196005302300, 388860678647350648732300, 388890547247298327248200,
  388921223751196005302300, 389020933334688002452300, 389170737576344666448500, 389200799259453935154900, 389890862659404740880000,
  389910690721154765193650, 390150572391099803318500, 390230866797926357165400, 390330737576344666448500, 390350799259453935154900,
  390380572391099803318500, 390680690721154765193650, 390690862659404740880000, 391081223751196005302300, 391281223751196005302300,
  391310865399302159691400, 391340865399302159691400, 391780710465903323251900, 391920667394986617214200, 392500841979963409611900,
  392860841979963409611900, 393210702802580721160300, 393400431679306193647100, 393420519151763684712100, 394090793344686684885400,
  394721044575249082496900, 395320431679306193647100, 395580793344686684885400, 396360771030331553464400, 396400498758642333503700,
  397290819885630369151200, 397401022260893951076000, 397590530726160324351600, 397700728521224296973200, 397910558368165672453500,
  398250726769866047702350, 398540841979963409611900, 400600728521224296973200, 400650558368165672453500, 400770726769866047702350,
  400920841979963409611900, 401651293065914061296900, 401690761009116513011300, 401790582077967754069800, 402511067936734200647400,
  404791293065914061296900, 404800761009116513011300, 405111067936734200647400, 405750599480243151995750, 405990840887056356392800,
  406130643917716845560000, 406140643917716845560000, 406350701580569587682800, 406361113889967138491400, 406430441817702892685100,
  406440441817702892685100, 406540696195158062760400, 406570627844148075604600, 406641073343456327675000, 406670670709130081930600,
  406800831060034213112800, 407780639905291540494300, 407791223751196005302300, 407840639905291540494300, 408450623300779943723900,
  408480673727467864240400, 408520690238062038227100, 408570623300779943723900, 408580690238062038227100]

def emitB28_0 : List Nat := [
  199690751588908521512500, 199750773903263652933600, 199960682274190465518000, 200050664042034786122600, 200520742057890541080050,
  200570773903263652933600, 200640698526083415295500, 201100414172037594088900, 201670981847417820917200, 201710871986188954106100,
  201950981847417820917200, 201960843217981708928100, 202190464799018317102000, 202370981847417820917200, 203090641727679654701600,
  203130525412598674133500, 203990871986188954106100, 204450601181168843885150, 204460912532699764922700, 205220981847417820917200,
  206130711042397710696150, 208090802671470898111600, 208450912532699764922700, 208510638448697372402500, 209110698526083415295500,
  209240802671470898111600, 209400871986188954106100, 209920871986188954106100, 209930912532699764922700, 210160341489998027435650,
  210170802671470898111600, 210630802671470898111600, 211290341489998027435650, 211470787256402915385800, 212530843217981708928100,
  213060337434292150873060, 213120337434292150873060, 213260588664854548484600, 213330912532699764922700, 213350912532699764922700,
  213400843217981708928100, 213460648626966803396800, 213850802671470898111600, 214260802671470898111600, 214760773903263652933600,
  214900871986188954106100, 214940704588545596939000, 214960648626966803396800, 215210610490211150486300, 215550498219227125769300,
  215560498219227125769300, 216080464799018317102000, 217040981847417820917200, 217760672743172485085500, 219320742057890541080050,
  219340912532699764922700, 221960664042034786122600, 222380843217981708928100, 227990773903263652933600, 228230981847417820917200,
  228250733356752842117100, 230020648626966803396800, 230040820903626577507000, 230200981847417820917200, 233760912532699764922700,
  233800476861817095963400, 233830981847417820917200, 233840981847417820917200, 233850430504543204418950, 233910912532699764922700,
  233950871986188954106100, 233980733356752842117100, 234030430504543204418950, 234160733356752842117100, 234250463669062791708600,
  234330677395174048574860, 234350475587914518220400, 235000687403519904273100, 235270463669062791708600, 235670871986188954106100,
  235690981847417820917200, 235780742057890541080050, 235880773903263652933600, 236010532983780847703150, 236090981847417820917200,
  236370762124960087295200, 236970843217981708928100, 238280912532699764922700, 240380552801473706078000, 241090981847417820917200,
  241200692810242031300700, 241790981847417820917200, 241960544902632574215000, 241980912532699764922700, 242120820903626577507000,
  242220981847417820917200, 242470473087784297678750, 243140598983278172007600, 243520254468786036427700, 243730254468786036427700,
  243800981847417820917200, 244210762124960087295200, 244220762124960087295200, 244290912532699764922700, 244640502268363261243100,
  245030981847417820917200, 245350762124960087295200, 247010981847417820917200, 248180981847417820917200, 248590981847417820917200,
  249500912532699764922700, 250330820903626577507000, 250960981847417820917200, 251040773903263652933600, 251140912532699764922700,
  251400717941684859391200, 259180447136664749170300, 259910575803116766275200, 260320820903626577507000, 260410638448697372402500,
  260440414172037594088900, 260450664042034786122600, 261020389421838079463930, 261260802671470898111600, 261310692810242031300700,
  261780389421838079463930, 261910981847417820917200, 262230981847417820917200, 263610632196661674269100, 263640762124960087295200,
  263660618088801848278550, 264170499819261260413400, 264200871986188954106100, 264460119206790181961760, 264600656037764018768900,
  264720430504543204418950, 264770656037764018768900, 264810682274190465518000, 265190454035951897865400, 266070751588908521512500,
  266110623495523975306100, 266410981847417820917200, 266900871986188954106100, 267050843217981708928100, 267530550098606467286100,
  267570912532699764922700, 269540430504543204418950, 269700981847417820917200, 270040871986188954106100, 270540871986188954106100,
  271550871986188954106100, 271920871986188954106100, 271930981847417820917200, 274310586723045962774400, 274720586723045962774400,
  274940802671470898111600, 275730871986188954106100, 276050820903626577507000, 276110843217981708928100, 277040581114099297670000,
  277210733356752842117100, 277430486264712060791000, 277480742057890541080050, 277540638448697372402500, 277840820903626577507000,
  279460692810242031300700, 280060912532699764922700, 280230787256402915385800, 282710742057890541080050, 283850981847417820917200,
  284150981847417820917200, 284500733356752842117100, 285040698526083415295500, 287790912532699764922700, 292330981847417820917200,
  292750981847417820917200, 292790912532699764922700, 295790335856972383163650, 297480981847417820917200, 300000489849325238104600,
  300010871986188954106100, 300020981847417820917200, 300030912532699764922700, 300500820903626577507000, 303330572412961598707100,
  303430981847417820917200, 304220762124960087295200, 304270682274190465518000, 304390648626966803396800, 306550648626966803396800,
  307070682274190465518000, 310410981847417820917200, 310620574093673430345200, 310690773903263652933600, 310770711042397710696150,
  311190802671470898111600, 312060656037764018768900, 312430733356752842117100, 313020843217981708928100, 314350820903626577507000,
  314560742057890541080050, 314820981847417820917200, 316160843217981708928100, 316490912532699764922700, 316840570760031403586000,
  317770843217981708928100, 321470981847417820917200, 324630981847417820917200, 325990656037764018768900, 326450656037764018768900,
  326500981847417820917200, 327220698526083415295500, 327420664042034786122600, 327690531866450787890600, 328310912532699764922700,
  328340603428454429091050, 328620641727679654701600, 328860603428454429091050, 329030981847417820917200, 329180871986188954106100,
  329930431314264227680900, 332550773903263652933600, 332980981847417820917200, 334060742057890541080050, 334570610490211150486300,
  334790981847417820917200, 334870601181168843885150, 334950871986188954106100, 335210912532699764922700, 335390570760031403586000,
  335410871986188954106100, 336000981847417820917200, 336350871986188954106100, 336740544902632574215000, 337070733356752842117100,
  337750588664854548484600, 338310659959835334097100, 338320871986188954106100, 338360773903263652933600, 338650704588545596939000,
  338830820903626577507000, 338910677395174048574860, 338940981847417820917200, 339310698526083415295500, 339450615491253207952500,
  339950762124960087295200, 340130981847417820917200, 340810843217981708928100, 340830698526083415295500, 341570659959835334097100,
  341800704588545596939000, 342170871986188954106100, 342530981847417820917200, 343110601181168843885150, 343820981847417820917200,
  343980787256402915385800, 348920912532699764922700, 349450698526083415295500, 350600871986188954106100, 352990820903626577507000,
  353770638448697372402500, 354490641727679654701600, 355760871986188954106100, 356130530761467169232100, 356740717941684859391200,
  357680638448697372402500, 358320871986188954106100, 358740530761467169232100, 358850717941684859391200, 359980542402502353673300,
  360270912532699764922700, 360320592665388009854500, 360390981847417820917200, 360400652263731220484200, 361260542402502353673300,
  361530912532699764922700, 361540592665388009854500, 361580652263731220484200, 361640981847417820917200, 362130489122049305196700,
  362490489122049305196700, 367630912532699764922700, 367930912532699764922700, 368300523350669953860000, 368310981847417820917200,
  368990523350669953860000, 369130464799018317102000, 369780981847417820917200, 370020912532699764922700, 370110687403519904273100,
  370450871986188954106100, 370490645117834822269700, 370570733356752842117100, 370730358406345249080000, 370850981847417820917200,
  370940843217981708928100, 371010725352482074763500, 371170912532699764922700, 371380645117834822269700, 371590687403519904273100,
  371650358406345249080000, 371920843217981708928100, 373290341655698148198600, 376660645117834822269700, 379120871986188954106100,
  379410981847417820917200, 380470871986188954106100, 380650645117834822269700, 380810981847417820917200, 382630725352482074763500,
  382710725352482074763500, 383310762124960087295200, 383640638448697372402500, 383950641727679654701600, 384140762124960087295200,
  384460981847417820917200, 384700981847417820917200, 384720386004948517938960, 385150386004948517938960, 385180725352482074763500,
  385200981847417820917200, 386340981847417820917200, 386690871986188954106100, 388160912532699764922700, 388590981847417820917200,
  388670458736556135458400, 388860981847417820917200, 388890458736556135458400, 389170981847417820917200, 389890509108635949683000,
  390150677395174048574860, 390330981847417820917200, 390380677395174048574860, 390690509108635949683000, 391920525412598674133500,
  393210981847417820917200, 393400447136664749170300, 393420698526083415295500, 395320447136664749170300, 396400429302123907738800,
  397290733356752842117100, 397590871986188954106100, 397910521330399222108000, 400650521330399222108000, 401800912532699764922700,
  404830912532699764922700, 406430472472397740240900, 406440472472397740240900, 406540981847417820917200, 407780656037764018768900,
  407840656037764018768900, 408450590645117278102600, 408480981847417820917200, 408520981847417820917200, 408570590645117278102600,
  408580981847417820917200]

def emitB29_0 : List Nat := [
  199680716705073691183400, 199691056824811857399000, 199750707174055710751000, 199770496060950447069100, 199780609660932521042100,
  199790946963582990588000, 199810671810051686393100, 199920946963582990588000, 199960718385785522821600, 199970786019791747178000,
  200041056824811857399000, 200130449290208748530600, 200160931548515007862200, 200200681874404264361900, 200250725406211390146450,
  200260594818932009214800, 200270786019791747178000, 200290776488773766745500, 200370895881020613988900, 200410918195375745410000,
  200440599353714007060700, 200480765047738648971100, 200520666627544899934500, 200611056824811857399000, 200651056824811857399000,
  200800877648864934593400, 201080321196824202324100, 201100826566302557994300, 201130862233796951867700, 201160563377418544329800,
  201170842818195507771900, 201220478442293624425200, 201260478442293624425200, 201320965195738669983400, 201360475860525321831100,
  201400886350002633556500, 201600782740809464878850, 201610855334509803172500, 201700965195738669983400, 201791126139529913393600,
  201800965195738669983400, 201851126139529913393600, 201950831695631996749500, 201960340934509186804570, 202101126139529913393600,
  202340489149431630570800, 202370886350002633556500, 202410808334146878598900, 202480869644594167239800, 202500800329876111245200,
  202620708700802923829800, 202710646560475353719400, 202850715052143496062300, 202940705670267974296900, 203040736957500102330900,
  203090895881020613988900, 203130837102354123777000, 203150762380913940754900, 203290634874041339788300, 203580918195375745410000,
  203811056824811857399000, 203990750019518344037300, 204261126139529913393600, 204450549620419634909000, 204490895881020613988900,
  204620869644594167239800, 204780646560475353719400, 204891126139529913393600, 205230708700802923829800, 206250665622511314584400,
  206940826566302557994300, 207780869644594167239800, 208030750019518344037300, 208090773503477451777300, 208110456066418958612500,
  208370661700439999256200, 208390623751477828765800, 208400946963582990588000, 208411056824811857399000, 208431126139529913393600,
  208440918195375745410000, 208480558807203196244300, 208520855334509803172500, 208570710251221577426300, 208590987510093801404500,
  208690623751477828765800, 208720757251584501999900, 208770698472918011787950, 208850800329876111245200, 208920965195738669983400,
  209080765047738648971100, 209120789409946914746100, 209190895881020613988900, 209370631975287652463100, 209401126139529913393600,
  209610848880657689415400, 209640862233796951867700, 209750526245873718725200, 209770526245873718725200, 209860862233796951867700,
  209980931548515007862200, 209990685467605186968200, 210150625744899318847600, 210160739019428822604400, 210290773503477451777300,
  210330568544619598761900, 210350773503477451777300, 210460862233796951867700, 210510931548515007862200, 210690831695631996749500,
  210731126139529913393600, 211060759783365300428850, 211290739019428822604400, 211331126139529913393600, 211470906417072179771600,
  211520535876196573256900, 211620575200696250595800, 211710812590108320478600, 211870767787636067782500, 212000946963582990588000,
  212020614340148671718000, 212140812590108320478600, 212420987510093801404500, 212460699871542209261900, 212700786019791747178000,
  212710715052143496062300, 213051126139529913393600, 213190698472918011787950, 213260655186509782160100, 213310946963582990588000,
  213350509597744490251500, 213380645737425440067900, 213450483329002644933900, 213460708700802923829800, 213550745473280936361500,
  213601126139529913393600, 213800779565939633420900, 213820918195375745410000, 214510965195738669983400, 214520895881020613988900,
  214600965195738669983400, 214760624411546231901050, 214870796555843312960600, 214881056824811857399000, 214900831695631996749500,
  214910869644594167239800, 214940792919078895873100, 214960779565939633420900, 215120946963582990588000, 215130512799725613728600,
  215160686694614446149650, 215171126139529913393600, 215180792919078895873100, 215200918195375745410000, 215210776488773766745500,
  215250877648864934593400, 215310767787636067782500, 215470965195738669983400, 215510906417072179771600, 215551126139529913393600,
  215561126139529913393600, 215661056824811857399000, 215700877648864934593400, 216080765047738648971100, 216280877648864934593400,
  216440677275892940179500, 216971056824811857399000, 217040444028782687747000, 217330786019791747178000, 217380675053579261708500,
  217460770604723764452200, 217760697093585798554400, 218550906417072179771600, 218881126139529913393600, 219160931548515007862200,
  219320666627544899934500, 220250804251947426573500, 220301016278301046582500, 221340638619797593278400, 222181056824811857399000,
  222350530038995951066200, 222400931548515007862200, 222660931548515007862200, 222690685467605186968200, 222700542075364176053700,
  222830685467605186968200, 222940542075364176053700, 223030736957500102330900, 223070613149658421086100, 223120633414161397673100,
  223170987510093801404500, 223200639386084867835300, 223381056824811857399000, 223431126139529913393600, 223500635612052069550500,
  223621016278301046582500, 223721126139529913393600, 223740800329876111245200, 223780946963582990588000, 224380918195375745410000,
  224430886350002633556500, 224670599353714007060700, 224780895881020613988900, 225210987510093801404500, 225220567040831862307800,
  225300931548515007862200, 225331016278301046582500, 225751016278301046582500, 226091016278301046582500, 226120519065757113144500,
  226161126139529913393600, 226220568166547314771300, 226660886350002633556500, 226960701290005708457600, 227180918195375745410000,
  227630946963582990588000, 227990895881020613988900, 228060906417072179771600, 228100402938496746917700, 228120918195375745410000,
  228180779565939633420900, 228230492103599540618300, 228250533981687949012000, 228260472036529994403150, 228270741124769742387600,
  228400492103599540618300, 228550826566302557994300, 228560804251947426573500, 228570796555843312960600, 228620773503477451777300,
  228650987510093801404500, 228680965195738669983400, 228850501917203367877000, 228870501917203367877000, 229000931548515007862200,
  229201126139529913393600, 229341126139529913393600, 229370987510093801404500, 229580821687286141051100, 229820754782323242962700,
  229870786019791747178000, 230201126139529913393600, 230410475860525321831100, 230680681874404264361900, 231100711826057274240200,
  232291126139529913393600, 233760786019791747178000, 233800895881020613988900, 233860732956966640960950, 233890718385785522821600,
  233910754782323242962700, 233950918195375745410000, 233980918195375745410000, 234160918195375745410000, 234180965195738669983400,
  234250804251947426573500, 234311016278301046582500, 234320965195738669983400, 234330539492724220063800, 234350842818195507771900,
  234360723604360839878600, 234391126139529913393600, 234450965195738669983400, 234471056824811857399000, 234480804251947426573500,
  234490618622148390010800, 234500624411546231901050, 234510869644594167239800, 234520826566302557994300, 234530551200231322568200,
  234660708700802923829800, 234670629855066887402800, 234700629855066887402800, 234780837102354123777000, 234810800329876111245200,
  234860869644594167239800, 234940779565939633420900, 235000671810051686393100, 235190750019518344037300, 235270804251947426573500,
  235420551200231322568200, 235461056824811857399000, 235531016278301046582500, 235561126139529913393600, 235581056824811857399000,
  235591056824811857399000, 235621056824811857399000, 235670574796655296895300, 235690869644594167239800, 235720567414664073368600,
  235780842818195507771900, 235880745473280936361500, 235911016278301046582500, 236120528758568726467400, 236140946963582990588000,
  236210812590108320478600, 236650459826260314313200, 236960987510093801404500, 237071016278301046582500, 237130757251584501999900,
  237141016278301046582500, 237210862233796951867700, 237290804251947426573500, 237310965195738669983400, 237860796555843312960600,
  237981016278301046582500, 238150343575056691394600, 238820877648864934593400, 239131056824811857399000, 240290789409946914746100,
  240380848880657689415400, 240390946963582990588000, 240400837102354123777000, 240460987510093801404500, 240500508969470172302000,
  240520452918459266672900, 240661126139529913393600, 240670467246882160041550, 240721056824811857399000, 240760542075364176053700,
  240850641720821267534400, 240930808334146878598900, 241071056824811857399000, 241090906417072179771600, 241200931548515007862200,
  241790739019428822604400, 241910743275390264484000, 241980965195738669983400, 242110523071003887267150, 242140931548515007862200,
  242181126139529913393600, 242200812590108320478600, 242220776488773766745500, 242350523071003887267150, 242470732956966640960950,
  242781126139529913393600, 242910743275390264484000, 243100671810051686393100, 243110931548515007862200, 243140600912187108730500,
  243200680704800288042700, 243221126139529913393600, 243430535603345107936500, 243520906417072179771600, 243571016278301046582500,
  243730906417072179771600, 243961016278301046582500, 244020821687286141051100, 244250855334509803172500, 244290931548515007862200,
  244330987510093801404500, 244410946963582990588000, 244440561948822819582200, 244600792919078895873100, 244640886350002633556500,
  244711056824811857399000, 244810690468647244434300, 245030493883005920665100, 245170987510093801404500, 245350821687286141051100,
  245440946963582990588000, 245760743275390264484000, 246050796555843312960600, 246090987510093801404500, 246460946963582990588000,
  246580946963582990588000, 246810637859337654756400, 246881126139529913393600, 246981126139529913393600, 248000862233796951867700,
  248590667642782046336300, 248871126139529913393600, 249040458557207749908700, 249350650780510802757000, 249500965195738669983400,
  250100708700802923829800, 250790743275390264484000, 250960681874404264361900, 251040817035284577562000, 251400779565939633420900,
  251520762380913940754900, 251660662666631090429900, 251760544428413917073100, 251960931548515007862200, 252651056824811857399000,
  252890409977329619474800, 253080684255469133733700, 253430987510093801404500, 254420590953716565786900, 254631056824811857399000,
  255050877648864934593400, 255140918195375745410000, 255520826566302557994300, 255620931548515007862200, 255630590953716565786900,
  255811126139529913393600, 257050543834940365091700, 257460649922136433617900, 259451016278301046582500, 259581126139529913393600]

def emitB29_1 : List Nat := [
  259680965195738669983400, 259760965195738669983400, 259910665622511314584400, 260000965195738669983400, 260310477981816985750400,
  260320507313117605134500, 260411016278301046582500, 260440826566302557994300, 260450643308156183163400, 260601056824811857399000,
  260710931548515007862200, 260850630556824153267400, 260870931548515007862200, 260891126139529913393600, 260930789409946914746100,
  261020906417072179771600, 261060812590108320478600, 261140770604723764452200, 261180821687286141051100, 261240804251947426573500,
  261260759783365300428850, 261311056824811857399000, 261431016278301046582500, 261490869644594167239800, 261570573993438127168900,
  261780906417072179771600, 261850723604360839878600, 261870723604360839878600, 261951016278301046582500, 262220591906104716912400,
  262281016278301046582500, 263131016278301046582500, 263540895881020613988900, 263640747720566521567400, 263660987510093801404500,
  263710800329876111245200, 263910678405848465572900, 263971016278301046582500, 264080789409946914746100, 264100812590108320478600,
  264120697093585798554400, 264130931548515007862200, 264170765047738648971100, 264200877648864934593400, 264210906417072179771600,
  264411056824811857399000, 264461016278301046582500, 264600759783365300428850, 264630946963582990588000, 264690918195375745410000,
  264721126139529913393600, 264770987510093801404500, 264800665622511314584400, 264810718385785522821600, 264940739019428822604400,
  264950812590108320478600, 264970965195738669983400, 265190704188759395782900, 265240837102354123777000, 265310826566302557994300,
  265751126139529913393600, 265800782740809464878850, 265970601437122697344900, 266070826566302557994300, 266110757251584501999900,
  266120931548515007862200, 266810817035284577562000, 266840525504213953220200, 267050796555843312960600, 267081056824811857399000,
  267250965195738669983400, 267260906417072179771600, 267421016278301046582500, 267530782740809464878850, 267570644921094376151800,
  267710831695631996749500, 267900779565939633420900, 267970862233796951867700, 268051056824811857399000, 268390826566302557994300,
  268620862233796951867700, 268931016278301046582500, 269541126139529913393600, 269700817035284577562000, 269761126139529913393600,
  269970965195738669983400, 270041126139529913393600, 270541126139529913393600, 271380765047738648971100, 271551126139529913393600,
  271780987510093801404500, 271920877648864934593400, 271940906417072179771600, 272110965195738669983400, 272430987510093801404500,
  274251126139529913393600, 274270931548515007862200, 274310609091130409578300, 274530877648864934593400, 274680663642248584966400,
  274720609091130409578300, 274910821687286141051100, 274940906417072179771600, 275110918195375745410000, 275120821687286141051100,
  275751056824811857399000, 276040518375305578490050, 276051056824811857399000, 276070720095228858751600, 276110906417072179771600,
  276880987510093801404500, 277000629158199955793400, 277040721834403129938450, 277120931548515007862200, 277141126139529913393600,
  277210589075727100627200, 277430681874404264361900, 277440831695631996749500, 277480842818195507771900, 277540987510093801404500,
  277640701290005708457600, 277660946963582990588000, 277790695733020592976550, 277921016278301046582500, 277960759783365300428850,
  278010670751840753339400, 278031016278301046582500, 278070725406211390146450, 278180877648864934593400, 278270767787636067782500,
  278351126139529913393600, 278370877648864934593400, 278610624411546231901050, 278631016278301046582500, 278740631975287652463100,
  278880608524556656010600, 278960750019518344037300, 279010750019518344037300, 279310535059865509340800, 279340946963582990588000,
  279411016278301046582500, 279431126139529913393600, 279530895881020613988900, 279660821687286141051100, 279730862233796951867700,
  279820826566302557994300, 279860946963582990588000, 280060906417072179771600, 280230487283389358830550, 280370895881020613988900,
  280621016278301046582500, 280730987510093801404500, 280740842818195507771900, 280920631975287652463100, 281130965195738669983400,
  281421016278301046582500, 281451016278301046582500, 281470762380913940754900, 281501016278301046582500, 281530965195738669983400,
  281540862233796951867700, 281650689194744666691300, 281890987510093801404500, 281931126139529913393600, 282010741124769742387600,
  282281016278301046582500, 282710842818195507771900, 282860987510093801404500, 283040770604723764452200, 283170725406211390146450,
  283310741124769742387600, 283590640158289477226300, 283631056824811857399000, 283881056824811857399000, 283900987510093801404500,
  283960877648864934593400, 284080946963582990588000, 284500589075727100627200, 285040895881020613988900, 285260886350002633556500,
  285440987510093801404500, 285480906417072179771600, 285800750019518344037300, 285950987510093801404500, 286251126139529913393600,
  286390826566302557994300, 286701056824811857399000, 286960750019518344037300, 287121126139529913393600, 287480855334509803172500,
  287710987510093801404500, 287720987510093801404500, 287890739019428822604400, 288000657926407200971600, 288140683057850029062100,
  288580594818932009214800, 288790599353714007060700, 289090767787636067782500, 290360657926407200971600, 291050767787636067782500,
  291130817035284577562000, 291511126139529913393600, 291591016278301046582500, 292330667642782046336300, 292450965195738669983400,
  292460567414664073368600, 292551126139529913393600, 292750886350002633556500, 293050482044875850101500, 293801126139529913393600,
  294170837102354123777000, 294200946963582990588000, 294221016278301046582500, 294631056824811857399000, 294860687936866446005400,
  295091016278301046582500, 295440946963582990588000, 295540931548515007862200, 295630687936866446005400, 295770817035284577562000,
  295790918195375745410000, 295950614340148671718000, 296270658856646467202900, 296320754782323242962700, 296420965195738669983400,
  296450831695631996749500, 296620987510093801404500, 296770762380913940754900, 297020762380913940754900, 297470633414161397673100,
  297480826566302557994300, 297560620514949378562700, 297850906417072179771600, 297900637859337654756400, 297910918195375745410000,
  298020614340148671718000, 298980620514949378562700, 299160718385785522821600, 299260554766249362456600, 299760631263540875576600,
  299951126139529913393600, 300000715052143496062300, 300020965195738669983400, 300031016278301046582500, 300050946963582990588000,
  300280506903280965906300, 300411016278301046582500, 300501056824811857399000, 300531016278301046582500, 300641126139529913393600,
  300950987510093801404500, 303310645737425440067900, 303330695733020592976550, 303421126139529913393600, 303470987510093801404500,
  303820669704710766609900, 304100732956966640960950, 304160821687286141051100, 304220613149658421086100, 304240779565939633420900,
  304271126139529913393600, 304360779565939633420900, 304390708700802923829800, 304520886350002633556500, 304950743275390264484000,
  305541126139529913393600, 305910796555843312960600, 307071056824811857399000, 308600931548515007862200, 309170886350002633556500,
  309280965195738669983400, 310341126139529913393600, 310620918195375745410000, 310701126139529913393600, 311190650780510802757000,
  311420690468647244434300, 311681016278301046582500, 311790826566302557994300, 311850503881903106256700, 312060773503477451777300,
  312160918195375745410000, 312810918195375745410000, 313020514329810109258700, 314350741124769742387600, 314561056824811857399000,
  314710931548515007862200, 314810792919078895873100, 315320821687286141051100, 315741126139529913393600, 316490855334509803172500,
  316841126139529913393600, 318590523071003887267150, 319031126139529913393600, 319340855334509803172500, 320001126139529913393600,
  320020725406211390146450, 320040490702525833658500, 320130646560475353719400, 320160759783365300428850, 320321016278301046582500,
  320340718385785522821600, 320430855334509803172500, 320480886350002633556500, 320570886350002633556500, 321140786019791747178000,
  321430821687286141051100, 321600680704800288042700, 321730527243388224407200, 323210946963582990588000, 323260946963582990588000,
  323401056824811857399000, 324190725406211390146450, 324220490702525833658500, 324261126139529913393600, 324350646560475353719400,
  324450759783365300428850, 324540886350002633556500, 324551056824811857399000, 324610886350002633556500, 324850821687286141051100,
  325000527243388224407200, 325110680704800288042700, 325540946963582990588000, 325990513890248961954900, 326450513890248961954900,
  326540762380913940754900, 326810918195375745410000, 327010987510093801404500, 327361126139529913393600, 327521126139529913393600,
  327690729110338558181300, 327710759783365300428850, 327800750019518344037300, 327840965195738669983400, 328220702728879453667600,
  328540613149658421086100, 328991056824811857399000, 329011056824811857399000, 329030869644594167239800, 329080918195375745410000,
  329180946963582990588000, 329330946963582990588000, 329430750019518344037300, 329460918195375745410000, 329930965195738669983400,
  330210987510093801404500, 331070605738861205714000, 332560681874404264361900, 332580581465792746762500, 332880855334509803172500,
  332900931548515007862200, 332930736957500102330900, 332980800329876111245200, 333110918195375745410000, 333370808334146878598900,
  333910826566302557994300, 333940848880657689415400, 334060677275892940179500, 334260946963582990588000, 334330535331236096500400,
  334450862233796951867700, 334520678405848465572900, 334531016278301046582500, 334570855334509803172500, 334591126139529913393600,
  334691126139529913393600, 334850782740809464878850, 334870701290005708457600, 335090667642782046336300, 335210645737425440067900,
  335380752372568085056700, 335391126139529913393600, 335760855334509803172500, 335860710251221577426300, 335930869644594167239800,
  336061056824811857399000, 336090731015158055250800, 336101056824811857399000, 336181016278301046582500, 336200837102354123777000,
  336351126139529913393600, 336550676158562880367000, 336730792919078895873100, 336781056824811857399000, 336820946963582990588000,
  337070609660932521042100, 337130522591386660917840, 337140732956966640960950, 337190931548515007862200, 337381016278301046582500,
  337750655186509782160100, 337780554766249362456600, 338020522591386660917840, 338210987510093801404500, 338291126139529913393600,
  338320589541928411208400, 338360707174055710751000, 338650792919078895873100, 339090918195375745410000, 339220672879580598067900]

def emitB29_2 : List Nat := [
  339450693066195884760400, 339700987510093801404500, 339800782740809464878850, 339950613149658421086100, 340031056824811857399000,
  340131126139529913393600, 340281056824811857399000, 340300732956966640960950, 341210895881020613988900, 341801126139529913393600,
  342170589541928411208400, 342531126139529913393600, 342550812590108320478600, 342760782740809464878850, 343110701290005708457600,
  343490558807203196244300, 343670987510093801404500, 343820895881020613988900, 347011056824811857399000, 349070745473280936361500,
  349130946963582990588000, 349261126139529913393600, 349741126139529913393600, 350321126139529913393600, 350410495512001218592000,
  350900987510093801404500, 351400759783365300428850, 351990489836719559347000, 352580831695631996749500, 352641126139529913393600,
  352661126139529913393600, 352730831695631996749500, 353361056824811857399000, 353821016278301046582500, 354490906417072179771600,
  354630492103599540618300, 355661126139529913393600, 355820457055302171537200, 356130745473280936361500, 357451056824811857399000,
  357791016278301046582500, 358340457055302171537200, 358641126139529913393600, 358740745473280936361500, 358951016278301046582500,
  359200931548515007862200, 359370877648864934593400, 359460601437122697344900, 359970557103584480987500, 360021016278301046582500,
  360200779565939633420900, 360230877648864934593400, 360270578075637579194400, 360390862233796951867700, 360400906417072179771600,
  360510869644594167239800, 360840762380913940754900, 360930757251584501999900, 361060731015158055250800, 361250557103584480987500,
  361291016278301046582500, 361490779565939633420900, 361530578075637579194400, 361580906417072179771600, 361640862233796951867700,
  361820762380913940754900, 361870757251584501999900, 361900731015158055250800, 361960786019791747178000, 362030653400748042159500,
  362130931548515007862200, 362150965195738669983400, 362340931548515007862200, 362490931548515007862200, 362751126139529913393600,
  363350564826719274586500, 366370946963582990588000, 367450946963582990588000, 367630848880657689415400, 367840895881020613988900,
  367860965195738669983400, 367970773503477451777300, 367980438616321185735800, 368080593351913034435400, 368170745473280936361500,
  368280931548515007862200, 368300732956966640960950, 368380877648864934593400, 368420679548718047935100, 368450918195375745410000,
  368551056824811857399000, 368791126139529913393600, 368900685467605186968200, 368990732956966640960950, 369130765047738648971100,
  369300987510093801404500, 369470705670267974296900, 369480438616321185735800, 369600931548515007862200, 369880773503477451777300,
  369930593351913034435400, 370110987510093801404500, 370270826566302557994300, 370300779565939633420900, 371170826566302557994300,
  371180729110338558181300, 371291056824811857399000, 371590987510093801404500, 372020965195738669983400, 373190877648864934593400,
  373240495512001218592000, 373250906417072179771600, 373260817035284577562000, 373290590953716565786900, 374920773503477451777300,
  375040931548515007862200, 375090659795620502186800, 376150877648864934593400, 376280886350002633556500, 376660752372568085056700,
  376700869644594167239800, 376750886350002633556500, 376790886350002633556500, 377820965195738669983400, 378060699871542209261900,
  378571056824811857399000, 379410782740809464878850, 379690773503477451777300, 380500886350002633556500, 380540877648864934593400,
  380650752372568085056700, 380810782740809464878850, 381080659795620502186800, 381340931548515007862200, 381450965195738669983400,
  381500877648864934593400, 381690886350002633556500, 381770886350002633556500, 381820869644594167239800, 382150699871542209261900,
  382361056824811857399000, 382630495694649671195400, 382710495694649671195400, 382720732956966640960950, 382830680704800288042700,
  383130987510093801404500, 383580277672529942325760, 383760732956966640960950, 383830277672529942325760, 383970987510093801404500,
  384510759783365300428850, 384530812590108320478600, 384630361599759970530150, 384640686694614446149650, 384710855334509803172500,
  384720965195738669983400, 384990812590108320478600, 385150965195738669983400, 385181126139529913393600, 385250759783365300428850,
  385391126139529913393600, 385800855334509803172500, 385930842818195507771900, 385961126139529913393600, 385970596307793258589850,
  385980745473280936361500, 386170895881020613988900, 386220987510093801404500, 386340886350002633556500, 386420862233796951867700,
  386470685467605186968200, 386510946963582990588000, 386541126139529913393600, 386690715052143496062300, 386951126139529913393600,
  387060842818195507771900, 387280739019428822604400, 387380821687286141051100, 387450906417072179771600, 387480906417072179771600,
  387500663642248584966400, 387610946963582990588000, 388590697093585798554400, 388670906417072179771600, 388860697093585798554400,
  388890906417072179771600, 389150886350002633556500, 389180577245757297724900, 389201126139529913393600, 389311016278301046582500,
  389890869644594167239800, 390310886350002633556500, 390340577245757297724900, 390351126139529913393600, 390391016278301046582500,
  390690869644594167239800, 390801126139529913393600, 391181126139529913393600, 391311016278301046582500, 391341016278301046582500,
  391780987510093801404500, 391920837102354123777000, 393210715052143496062300, 393400494423061238665100, 394231126139529913393600,
  395320494423061238665100, 395671126139529913393600, 396400548374297591127800, 397590708700802923829800, 397910668668432063055200,
  398221126139529913393600, 398250931548515007862200, 398540965195738669983400, 400650668668432063055200, 400711126139529913393600,
  400770931548515007862200, 400920965195738669983400, 401651126139529913393600, 401790862233796951867700, 401800886350002633556500,
  402511126139529913393600, 403720862233796951867700, 404411016278301046582500, 404791126139529913393600, 404810987510093801404500,
  404830886350002633556500, 405111126139529913393600, 405480862233796951867700, 405601016278301046582500, 405730821687286141051100,
  405750965195738669983400, 405990776488773766745500, 406070946963582990588000, 406130613743131973067600, 406140613743131973067600,
  406350987510093801404500, 406430918195375745410000, 406440918195375745410000, 406540869644594167239800, 406570661700439999256200,
  406600886350002633556500, 406640693066195884760400, 406671126139529913393600, 407230918195375745410000, 407780895881020613988900,
  407840895881020613988900, 408450676158562880367000, 408480776488773766745500, 408570676158562880367000, 408601016278301046582500,
  408631016278301046582500]

def emitB30_0 : List Nat := [
  199680781540750749275600, 199691014430990880417500, 199710764560993688383800, 199750703079459959380100, 199770590346288759307200,
  199780374150863643094440, 199790747016125937764600, 199810767057655961429900, 199821244689500179822000, 199880945116272824423000,
  199921077291856822655000, 199951215921292934644000, 199960433977753104783000, 200040724472149580308600, 200050864023251202790000,
  200060867030996726517800, 200100906817047598812400, 200130205143850034640660, 200160823723959306512500, 200181077291856822655000,
  200200623295379236373200, 200250634210176938323500, 200290822249731132792200, 200351004899972899985000, 200371354550729046633000,
  200410817953127544447900, 200430693078169026256900, 200440577528408630754400, 200450848291225743936300, 200480759226395617854600,
  200520932599958529022300, 200610649192156327265400, 200621065513553257016500, 200630890111639132495800, 200641193606937803223000,
  200651354550729046633000, 200700938662420710665800, 200811159959714141101700, 200830999015922897691600, 200940983193522376202200,
  200981159959714141101700, 201080683864495386358300, 201100793237918407826000, 201130540490024760788050, 201141175374782123827400,
  201160685218362219638100, 201170792873619279975900, 201220496853689501423200, 201260496853689501423200, 201320911469049162301600,
  201341159959714141101700, 201361159959714141101700, 201391114761201766796000, 201400594111094166999200, 201411244689500179822000,
  201470922801917693001900, 201540829323386241970000, 201600996198835201022000, 201610831439867361174300, 201711004899972899985000,
  201740929701204841697000, 201791054977501691233900, 201850807323661679485500, 201951083745708936412000, 201970694291939827699340,
  202020909115999421282200, 202080917605943799930800, 202101060106831129988900, 202191054977501691233900, 202340541662714834069100,
  202371159959714141101700, 202390728592582640140750, 202410926884117145027500, 202500848291225743936300, 202620587881709038624500,
  202660969535968875627100, 202710790715262113258400, 202781036745346011838400, 202851045446483710801500, 203011285236010990638500,
  203040973884480069601100, 203091244689500179822000, 203121285236010990638500, 203130800424374530790300, 203150693078169026256900,
  203291090644996085107200, 203390892053447718206000, 203580895038744033174000, 203810961368165774200500, 203990934081467107536400,
  204051215921292934644000, 204151159959714141101700, 204200492017744044551450, 204450679090319097836750, 204490741863810635214500,
  204620860386486785702500, 204780990792113073994500, 204891054977501691233900, 204910906817047598812400, 204981114761201766796000,
  205230587881709038624500, 205470878333335566857400, 205591077291856822655000, 205811175374782123827400, 206050969535968875627100,
  206131215921292934644000, 206251090644996085107200, 207360909115999421282200, 207470990792113073994500, 208030831439867361174300,
  208081124292219747228400, 208090931140078586907000, 208110687727904204892700, 208220824718992391829400, 208230824718992391829400,
  208261077291856822655000, 208370737799079957798900, 208390585476412692445800, 208401060106831129988900, 208410724472149580308600,
  208430815187974411396800, 208440918879846377673800, 208450735519188461318300, 208480675653554747416000, 208490965368699235570400,
  208510644713165187554350, 208520686842382921919500, 208531024967042446200200, 208591354550729046633000, 208640742520987151538000,
  208690585476412692445800, 208720847033347523250200, 208741285236010990638500, 208761285236010990638500, 208851041001307453718100,
  208910925504784931793800, 208921004899972899985000, 208961215921292934644000, 209081017821146047985600, 209111090644996085107200,
  209120849565128321679300, 209140890111639132495800, 209190952015559973118100, 209281215921292934644000, 209340746328838008988400,
  209370904569762013606600, 209400937112002057069300, 209600780571437828709600, 209610817022888278216500, 209640726324054357032400,
  209730985662783635239300, 209750945116272824423000, 209770945116272824423000, 209881054977501691233900, 209980905687092073419000,
  209991001914676585016800, 210150845791095523394500, 210160877482266600066500, 210180802404637260408300, 210291244689500179822000,
  210330725393815090801000, 210351244689500179822000, 210501090644996085107200, 210690931140078586907000, 210730815643556064982900,
  210830802404637260408300, 210891159959714141101700, 211290877482266600066500, 211330815643556064982900, 211520558169933723487950,
  211531244689500179822000, 211621001914676585016800, 211711050098485274290600, 211870924144219726216000, 211931354550729046633000,
  212001060106831129988900, 212020965368699235570400, 212091244689500179822000, 212131114761201766796000, 212141050098485274290600,
  212201054977501691233900, 212530798867922876679250, 212560708873763489416700, 212701077291856822655000, 212710363748005788817030,
  212951285236010990638500, 213050848926148511802100, 213071071229394641011400, 213130838645199125180200, 213150890111639132495800,
  213191215921292934644000, 213200790360021952821600, 213220929701204841697000, 213260496028168865826600, 213291032663146559813000,
  213311098055793300479300, 213331146606574878649500, 213350398669553190210340, 213380744518833844626600, 213450738852830488077500,
  213460750287445678394900, 213510793603549528137000, 213550988194564433668400, 213600445237511939568800, 213610882700841917123600,
  213630938662420710665800, 213671071229394641011400, 213781244689500179822000, 213800826230356172834100, 213820891077830223669500,
  214070910285603397601400, 214140695109383071655200, 214161215921292934644000, 214391354550729046633000, 214510913878804320207600,
  214520810742798154313400, 214571215921292934644000, 214631285236010990638500, 214650747708170222222000, 214721244689500179822000,
  214741215921292934644000, 214750888206819635426300, 214760619114496004485400, 214771017821146047985600, 214831159959714141101700,
  214870983193522376202200, 214880484565926446601750, 214901011152008598118400, 214910910285603397601400, 214940785177515166363000,
  214961054977501691233900, 215081146606574878649500, 215120704271724455070650, 215130609600928508348100, 215141124292219747228400,
  215160752691407597009600, 215170934081467107536400, 215180801607820295490600, 215191014430990880417500, 215200675428582774014400,
  215210916348065579244800, 215250881811947175399000, 215310790006039282309200, 215341159959714141101700, 215471175374782123827400,
  215510880057516210308000, 215550747016125937764600, 215560747016125937764600, 215700881811947175399000, 215761244689500179822000,
  215781134828271313011000, 215921285236010990638500, 216080749577383523437200, 216211159959714141101700, 216280753424011606216800,
  216440729940052498476700, 216880672877140987136200, 216960973884480069601100, 217040621444698524769700, 217091050098485274290600,
  217291285236010990638500, 217330598282604374444600, 217460953817410523385900, 217760727074526922439100, 218071285236010990638500,
  218300627519440438730500, 218550880057516210308000, 218880643155118090029500, 218921098055793300479300, 218951354550729046633000,
  219160754162022335979100, 219171017821146047985600, 219320932599958529022300, 219341146606574878649500, 219431244689500179822000,
  219471285236010990638500, 220250676331523445953800, 220301354550729046633000, 221321244689500179822000, 221340909115999421282200,
  221960864023251202790000, 222181354550729046633000, 222350512196565513154800, 222380774641463600580400, 222401159959714141101700,
  222420934081467107536400, 222601244689500179822000, 222660835812148462557600, 222690872522572486129300, 222700838072131654281600,
  222751114761201766796000, 222780850855468805270100, 222800955652324390205600, 222830872522572486129300, 222851244689500179822000,
  222910850855468805270100, 222940838072131654281600, 222960934081467107536400, 223030643236518175924200, 223070662879227011272100,
  223131124292219747228400, 223141004899972899985000, 223170889154694030880700, 223200657102837944128500, 223381354550729046633000,
  223430988194564433668400, 223461215921292934644000, 223500978430717477276700, 223631354550729046633000, 223651045446483710801500,
  223691146606574878649500, 223720815187974411396800, 223740827764913140300300, 223780976131765654807000, 224331193606937803223000,
  224351071229394641011400, 224381071229394641011400, 224431215921292934644000, 224670582548935003408500, 224780578461409461530600,
  224841146606574878649500, 225220764287395706496400, 225341175374782123827400, 225641354550729046633000, 225700874148624573307300,
  225751071229394641011400, 225760955652324390205600, 225771114761201766796000, 226120644713165187554350, 226151124292219747228400,
  226160870922538351485200, 226220694836158857967900, 226661215921292934644000, 226811285236010990638500, 226861017821146047985600,
  226871215921292934644000, 226960675092070958983100, 227181071229394641011400, 227211285236010990638500, 227271354550729046633000,
  227561354550729046633000, 227611045446483710801500, 227631244689500179822000, 227641354550729046633000, 227740935585254843990400,
  227780935585254843990400, 227810795825863206608000, 227971032663146559813000, 227990794338846958662900, 228041077291856822655000,
  228051193606937803223000, 228060806904373853482000, 228100703822957808131800, 228121071229394641011400, 228230442772090010075600,
  228250492864977593714750, 228260501362255030710300, 228270859674740008816200, 228361146606574878649500, 228390959426357188490400,
  228401090644996085107200, 228410996198835201022000, 228421354550729046633000, 228460996198835201022000, 228551007977138766660400,
  228560940237256407479700, 228570755905528518189200, 228621011152008598118400, 228650694291939827699340, 228850628287868949208850,
  228870628287868949208850, 228901354550729046633000, 228991090644996085107200, 229021354550729046633000, 229090838072131654281600,
  229140856190066875799400, 229200965368699235570400, 229371065513553257016500, 229491354550729046633000, 229871065513553257016500,
  229930909115999421282200, 229960802005435133454500, 230021175374782123827400, 230041134828271313011000, 230131354550729046633000,
  230410678741278603859900, 230440957521537691420800, 230571285236010990638500, 231050957521537691420800, 231101032663146559813000,
  231620878333335566857400, 232290965368699235570400, 232730852822745365140600, 233760887267845600442400, 233800948506427991991000,
  233831354550729046633000, 233851036745346011838400, 233861285236010990638500, 233890818421512475690500, 233910754905520184730900]

def emitB30_1 : List Nat := [
  233961065513553257016500, 233981090644996085107200, 234031036745346011838400, 234161090644996085107200, 234250591942453239395000,
  234291354550729046633000, 234330514193082583706000, 234350988194564433668400, 234361032663146559813000, 234391134828271313011000,
  234471106060064067832900, 234480801211780173881000, 234500741428080098319000, 234510941837290542123800, 234520673646798442335100,
  234530711096077167887700, 234590780571437828709600, 234661285236010990638500, 234671004899972899985000, 234701004899972899985000,
  234781090644996085107200, 234811017821146047985600, 234851001914676585016800, 234860912666668266973200, 234870849565128321679300,
  234921215921292934644000, 234940707161659411405500, 235000806071035697567600, 235060999015922897691600, 235190894033710447823900,
  235270591942453239395000, 235321001914676585016800, 235420711096077167887700, 235451244689500179822000, 235461071229394641011400,
  235471114761201766796000, 235510795825863206608000, 235531028741075244484700, 235560990792113073994500, 235581124292219747228400,
  235591124292219747228400, 235611021330278029112600, 235631114761201766796000, 235651244689500179822000, 235670708091898677636900,
  235690917605943799930800, 235721244689500179822000, 235731124292219747228400, 235740924144219726216000, 235781001914676585016800,
  235880993458937782210500, 235911071229394641011400, 236091215921292934644000, 236120633987211405596600, 236140885415940823718600,
  236210835255043957612000, 236241175374782123827400, 236271354550729046633000, 236310941837290542123800, 236481354550729046633000,
  236630883597708915399600, 236650441811383931107400, 236960918879846377673800, 236971354550729046633000, 237001071229394641011400,
  237031004899972899985000, 237041114761201766796000, 237060999015922897691600, 237071146606574878649500, 237130847033347523250200,
  237151285236010990638500, 237210980783767218296100, 237230965368699235570400, 237250965368699235570400, 237291004899972899985000,
  237310819364915699026300, 237350812055727298492700, 237481285236010990638500, 237771036745346011838400, 237840785177515166363000,
  237921193606937803223000, 237961114761201766796000, 237981146606574878649500, 238051036745346011838400, 238100945116272824423000,
  238140961368165774200500, 238150803611895383835200, 238301175374782123827400, 238311004899972899985000, 238820967430627955844000,
  238880999015922897691600, 239130783177448495696100, 239590945116272824423000, 239751285236010990638500, 239940965368699235570400,
  240131060106831129988900, 240290743182511063409900, 240340852162676962005400, 240370978430717477276700, 240380926884117145027500,
  240401011152008598118400, 240410857569399089033000, 240430841560857554325600, 240520437411566862872200, 240551106060064067832900,
  240611114761201766796000, 240660961368165774200500, 240670639559045433422100, 240760594961737274779200, 240850801607820295490600,
  240931098055793300479300, 241021285236010990638500, 241181285236010990638500, 241200674422425599471000, 241491106060064067832900,
  241781060106831129988900, 241790628639116236922900, 241801014430990880417500, 241820867030996726517800, 241841244689500179822000,
  241851060106831129988900, 241880955652324390205600, 241900780571437828709600, 241910431135274039089200, 241960815187974411396800,
  241980854829501670221400, 242080782519551385891800, 242110773436629748963000, 242120911469049162301600, 242130847660308824610000,
  242151024967042446200200, 242170848291225743936300, 242200847660308824610000, 242221215921292934644000, 242350773436629748963000,
  242470824718992391829400, 242640695109383071655200, 242651193606937803223000, 242660955652324390205600, 242821215921292934644000,
  242870848291225743936300, 242881244689500179822000, 242910431135274039089200, 243000782519551385891800, 243100643236518175924200,
  243140753424011606216800, 243200619949708055303800, 243241285236010990638500, 243311014430990880417500, 243391354550729046633000,
  243430833057153285734500, 243520694427717173745400, 243571193606937803223000, 243730694427717173745400, 243961193606937803223000,
  244020973884480069601100, 244030833057153285734500, 244131244689500179822000, 244281050098485274290600, 244290847033347523250200,
  244320883597708915399600, 244440836935755789250100, 244521175374782123827400, 244600801607820295490600, 244640666204470405323800,
  244651175374782123827400, 244661159959714141101700, 244710864766749051541900, 244780929701204841697000, 244811215921292934644000,
  244901024967042446200200, 244940965368699235570400, 245030457940643309909100, 245091175374782123827400, 245351036745346011838400,
  245441050098485274290600, 245551354550729046633000, 245651014430990880417500, 245710913878804320207600, 245760807744714933120000,
  245940831976061675312900, 246050934081467107536400, 246091285236010990638500, 246181354550729046633000, 246351215921292934644000,
  246460897079631196294800, 246580897079631196294800, 246810874148624573307300, 246850983193522376202200, 246871001914676585016800,
  246880971686589397723600, 247091146606574878649500, 247130861103335733563700, 247421146606574878649500, 248000787218402329483800,
  248470552457957148475400, 248590679557609667776050, 249040952015559973118100, 249170782847958906010800, 249500854829501670221400,
  249770985662783635239300, 250101285236010990638500, 250330911469049162301600, 250790807744714933120000, 250961060106831129988900,
  251040585065921808172000, 251061175374782123827400, 251141124292219747228400, 251150917605943799930800, 251401285236010990638500,
  251421054977501691233900, 251431054977501691233900, 251510831976061675312900, 251520973884480069601100, 251591285236010990638500,
  251601098055793300479300, 251631354550729046633000, 251651244689500179822000, 251660790006039282309200, 251711285236010990638500,
  251760890111639132495800, 251960655433040334512000, 252060820796921076501300, 252150812055727298492700, 252401106060064067832900,
  252420765110445620147900, 252501215921292934644000, 252531114761201766796000, 252651244689500179822000, 252890634210176938323500,
  252980999015922897691600, 253051060106831129988900, 253071050098485274290600, 253080955652324390205600, 253211285236010990638500,
  253290978430717477276700, 253431083745708936412000, 253761114761201766796000, 253860689264426111298350, 253911124292219747228400,
  254381215921292934644000, 254630696348215157350400, 254901124292219747228400, 254941098055793300479300, 255051021330278029112600,
  255141215921292934644000, 255281083745708936412000, 255521083745708936412000, 255541354550729046633000, 255620655433040334512000,
  255810932599958529022300, 256541215921292934644000, 257050715526662340098000, 257361215921292934644000, 257460840970885341606900,
  257471114761201766796000, 257631083745708936412000, 257710765110445620147900, 257730945116272824423000, 257941244689500179822000,
  257991285236010990638500, 258560881811947175399000, 259121077291856822655000, 259131285236010990638500, 259181354550729046633000,
  259190980783767218296100, 259250801607820295490600, 259411065513553257016500, 259421124292219747228400, 259440747708170222222000,
  259580689781891690300100, 259910744518833844626600, 259951159959714141101700, 260000918879846377673800, 260011285236010990638500,
  260070971686589397723600, 260310658137167804808500, 260320462538553859392500, 260410892053447718206000, 260440793237918407826000,
  260451090644996085107200, 260490872522572486129300, 260530831976061675312900, 260601083745708936412000, 260800691482390482395800,
  260850408807249302015100, 260870818421512475690500, 260921098055793300479300, 260931193606937803223000, 261021114761201766796000,
  261061354550729046633000, 261141134828271313011000, 261180603179804262662500, 261221077291856822655000, 261240769330481069185500,
  261260810742798154313400, 261310873332293509391300, 261321134828271313011000, 261430983193522376202200, 261491050098485274290600,
  261570909115999421282200, 261741159959714141101700, 261781114761201766796000, 261850688749624459558200, 261870688749624459558200,
  261951060106831129988900, 262220750763637054419200, 262230762125149305179850, 262281215921292934644000, 262340779930409992617700,
  262621045446483710801500, 262801193606937803223000, 262970910285603397601400, 263131060106831129988900, 263540748405037153831300,
  263600938662420710665800, 263610892053447718206000, 263640751964131664101600, 263660864023251202790000, 263710848291225743936300,
  263760969535968875627100, 263880957521537691420800, 263911083745708936412000, 263950856190066875799400, 263970567419608714292300,
  264080946796984656061000, 264101004899972899985000, 264120874148624573307300, 264131098055793300479300, 264171014430990880417500,
  264261244689500179822000, 264321193606937803223000, 264341354550729046633000, 264411215921292934644000, 264460937112002057069300,
  264470922801917693001900, 264490961368165774200500, 264600891077830223669500, 264620808592177632217200, 264651146606574878649500,
  264690895038744033174000, 264720840970885341606900, 264770560991990487713000, 264801090644996085107200, 264810433977753104783000,
  264940649973071358681850, 264950911469049162301600, 264971193606937803223000, 265031285236010990638500, 265071175374782123827400,
  265190818421512475690500, 265241014430990880417500, 265250921477395018000000, 265261106060064067832900, 265310913878804320207600,
  265331244689500179822000, 265390988194564433668400, 265501175374782123827400, 265750676558538299407800, 265841045446483710801500,
  265901354550729046633000, 265971001914676585016800, 266040774944953970095800, 266110778345590768615300, 266120787218402329483800,
  266231285236010990638500, 266381215921292934644000, 266411017821146047985600, 266460978430717477276700, 266571354550729046633000,
  266660845791095523394500, 266811065513553257016500, 266840734702857397402200, 266861060106831129988900, 266900703524894994318000,
  266910798098688314363600, 267001036745346011838400, 267040758966992100149900, 267050836372374017424600, 267071050098485274290600,
  267250980783767218296100, 267261024967042446200200, 267530689652274044155400, 267570793970522417033300, 267711285236010990638500,
  267811146606574878649500, 267910872522572486129300, 267921098055793300479300, 267971285236010990638500, 268050884502692467391300,
  268250999015922897691600, 268271175374782123827400, 268341285236010990638500, 268370985662783635239300, 268390913878804320207600,
  268481354550729046633000, 268621354550729046633000, 268660978430717477276700, 268981054977501691233900, 269281354550729046633000]

def emitB30_2 : List Nat := [
  269540840970885341606900, 269630988194564433668400, 269700735929866656583600, 269761285236010990638500, 269971193606937803223000,
  270040882700841917123600, 270140772542436011396800, 270291045446483710801500, 270540996198835201022000, 270881354550729046633000,
  271380759226395617854600, 271411106060064067832900, 271460844564086264213100, 271550882700841917123600, 271671014430990880417500,
  271780741863810635214500, 271851028741075244484700, 271931017821146047985600, 271941024967042446200200, 272041175374782123827400,
  272110980783767218296100, 272241244689500179822000, 272311244689500179822000, 272430741863810635214500, 272640971686589397723600,
  273591215921292934644000, 273701244689500179822000, 273871028741075244484700, 274101060106831129988900, 274251354550729046633000,
  274260894033710447823900, 274310466464368059897350, 274530943463342629301800, 274631054977501691233900, 274681193606937803223000,
  274720466464368059897350, 274810940237256407479700, 274890894033710447823900, 274910782847958906010800, 274940534907047923130300,
  275110891077830223669500, 275120973884480069601100, 275151354550729046633000, 275731124292219747228400, 275781193606937803223000,
  276040674980151529281600, 276050993458937782210500, 276110810742798154313400, 276650839221569596855000, 277000781865954287913300,
  277040603507673408832400, 277051054977501691233900, 277120953817410523385900, 277191285236010990638500, 277210605107707543476450,
  277330815187974411396800, 277401285236010990638500, 277410847660308824610000, 277430434128559949832500, 277440993458937782210500,
  277480817486926233866700, 277521001914676585016800, 277640793603549528137000, 277660895038744033174000, 277731215921292934644000,
  277740816101222767724000, 277770766777150868669100, 277780869347702654671300, 277790917605943799930800, 277810858968023286506900,
  277840671247555768012900, 277961193606937803223000, 278010649365166751043600, 278030946796984656061000, 278071124292219747228400,
  278111077291856822655000, 278150779930409992617700, 278171193606937803223000, 278181050098485274290600, 278210913878804320207600,
  278250883597708915399600, 278270391068380454622100, 278331159959714141101700, 278350845175708965956800, 278371244689500179822000,
  278381060106831129988900, 278391071229394641011400, 278490743848440272407500, 278501159959714141101700, 278521065513553257016500,
  278610450039539785792450, 278630829323386241970000, 278671193606937803223000, 278740534220326367104700, 278771065513553257016500,
  278880599853317294980300, 278960768187611486823300, 278981354550729046633000, 279011014430990880417500, 279020843351950210978700,
  279150868569488610465800, 279310530196178253807000, 279340837502329542817800, 279410836372374017424600, 279460732890118938146500,
  279500901290779731307400, 279530904569762013606600, 279641124292219747228400, 279661285236010990638500, 279690959426357188490400,
  279731090644996085107200, 279741014430990880417500, 279781215921292934644000, 279820659949329936710250, 279830837502329542817800,
  279850823230131142454300, 279861098055793300479300, 279880996198835201022000, 279930519201019172088250, 279940955652324390205600,
  280001134828271313011000, 280060707316099596543000, 280090957521537691420800, 280101124292219747228400, 280141007977138766660400,
  280151285236010990638500, 280230525320918340310900, 280341124292219747228400, 280371036745346011838400, 280390843351950210978700,
  280411114761201766796000, 280441159959714141101700, 280491060106831129988900, 280621024967042446200200, 280630963348428503818400,
  280650980783767218296100, 280700912666668266973200, 280711011152008598118400, 280731244689500179822000, 280740868569488610465800,
  280920904569762013606600, 280950858968023286506900, 280961007977138766660400, 281000820796921076501300, 281010955652324390205600,
  281031050098485274290600, 281251045446483710801500, 281281045446483710801500, 281291159959714141101700, 281361215921292934644000,
  281420581797217999088200, 281450498257620737623900, 281470957521537691420800, 281501024967042446200200, 281541090644996085107200,
  281650722294205053904600, 281770948506427991991000, 281801193606937803223000, 281861354550729046633000, 281890990792113073994500,
  281921011152008598118400, 281930886337606334211000, 281951083745708936412000, 281960834701025920050400, 281971014430990880417500,
  281980980783767218296100, 282010690824925918187300, 282050721222766232663900, 282070980783767218296100, 282220823230131142454300,
  282280880057516210308000, 282460496215189679642400, 282480623028890071335500, 282510805656956430964400, 282550841560857554325600,
  282631159959714141101700, 282710817486926233866700, 282860943463342629301800, 282941159959714141101700, 282961193606937803223000,
  283041193606937803223000, 283100746328838008988400, 283171124292219747228400, 283270957521537691420800, 283300892053447718206000,
  283310690824925918187300, 283530952015559973118100, 283560779930409992617700, 283590830906532763638000, 283660842751347804957400,
  283670952015559973118100, 283690886337606334211000, 283731215921292934644000, 283850632367146517788100, 283900836935755789250100,
  283920795452030995547300, 283961050098485274290600, 284041175374782123827400, 284081098055793300479300, 284090862552636463820500,
  284150632367146517788100, 284171193606937803223000, 284350921477395018000000, 284371021330278029112600, 284480898115909899849500,
  284500605107707543476450, 284510963348428503818400, 284591098055793300479300, 284630848291225743936300, 284670796577746448010800,
  284781090644996085107200, 284791014430990880417500, 284810937112002057069300, 284870854156098452087000, 284930874971674486959000,
  285040896053981179575800, 285070905687092073419000, 285080905687092073419000, 285100957521537691420800, 285140996198835201022000,
  285160912666668266973200, 285251124292219747228400, 285260768757413598287100, 285270996198835201022000, 285321124292219747228400,
  285400718420481289333500, 285441244689500179822000, 285480915105813579389000, 285530985662783635239300, 285580854829501670221400,
  285671011152008598118400, 285720802404637260408300, 285760948506427991991000, 285801014430990880417500, 285830920170186861264700,
  285950524497868426659300, 285980988194564433668400, 286091215921292934644000, 286171065513553257016500, 286251060106831129988900,
  286390659949329936710250, 286401244689500179822000, 286540824220238240725500, 286560874971674486959000, 286570795452030995547300,
  286681354550729046633000, 286870837502329542817800, 286960768187611486823300, 286990967430627955844000, 287030854156098452087000,
  287101124292219747228400, 287121060106831129988900, 287340802404637260408300, 287391077291856822655000, 287481004899972899985000,
  287661134828271313011000, 287710943463342629301800, 287720836935755789250100, 287790885415940823718600, 287831036745346011838400,
  287890745419740838863200, 288091354550729046633000, 288141090644996085107200, 288451244689500179822000, 288460980783767218296100,
  288511041001307453718100, 288790577528408630754400, 288950757679973048096400, 289090810742798154313400, 289370790715262113258400,
  289610691482390482395800, 289660745873256355402300, 290170757679973048096400, 290281285236010990638500, 290661090644996085107200,
  291050810742798154313400, 291281036745346011838400, 291410672004725421102300, 291510847660308824610000, 292001354550729046633000,
  292260810742798154313400, 292330679557609667776050, 292461244689500179822000, 292541285236010990638500, 292561083745708936412000,
  292601215921292934644000, 292730847660308824610000, 292750816101222767724000, 292791054977501691233900, 292810856190066875799400,
  293050826739263123581300, 293250976131765654807000, 293690967430627955844000, 293991354550729046633000, 294200850855468805270100,
  294220921477395018000000, 294360917605943799930800, 294671090644996085107200, 294831028741075244484700, 294860993458937782210500,
  294921354550729046633000, 294940967430627955844000, 295090921477395018000000, 295440850855468805270100, 295541050098485274290600,
  295630993458937782210500, 295720771362481318281300, 295770694699826185181500, 295790777406616733631400, 295950811616166151188900,
  296150845175708965956800, 296270855507470368759300, 296321090644996085107200, 296450898115909899849500, 296571175374782123827400,
  296621285236010990638500, 296640664881295884361800, 296770948506427991991000, 296820952015559973118100, 297011098055793300479300,
  297021032663146559813000, 297050863285240473027700, 297231193606937803223000, 297481244689500179822000, 297491098055793300479300,
  297560814734458894857700, 297590952015559973118100, 297900592725619258963500, 297911354550729046633000, 297961065513553257016500,
  298020811616166151188900, 298071098055793300479300, 298141065513553257016500, 298631146606574878649500, 298720845175708965956800,
  298980814734458894857700, 299160921477395018000000, 299260884502692467391300, 299340918879846377673800, 299350955652324390205600,
  299640955652324390205600, 299730918879846377673800, 299760599747832053131600, 299961007977138766660400, 300000856190066875799400,
  300021159959714141101700, 300031036745346011838400, 300051244689500179822000, 300081159959714141101700, 300101354550729046633000,
  300281050098485274290600, 300410971686589397723600, 300500993458937782210500, 300531060106831129988900, 300580791429550864496440,
  300700833057153285734500, 300731021330278029112600, 300901244689500179822000, 300950976131765654807000, 302461065513553257016500,
  303310785853193412651050, 303321215921292934644000, 303330598178762205196350, 303340787562636748581000, 303381193606937803223000,
  303400946796984656061000, 303430785514783614227000, 303471106060064067832900, 303580841560857554325600, 303821041001307453718100,
  304021193606937803223000, 304061001914676585016800, 304081028741075244484700, 304100854829501670221400, 304160796201098168463100,
  304170990792113073994500, 304220915105813579389000, 304240879191709935996500, 304270849565128321679300, 304350990792113073994500,
  304360879191709935996500, 304390750287445678394900, 304461354550729046633000, 304490912666668266973200, 304520713862730439701600,
  304560935585254843990400, 304730950245602263178000, 304961146606574878649500, 305620996198835201022000, 306931285236010990638500,
  307070598178762205196350, 307181354550729046633000, 307200924144219726216000, 307211215921292934644000, 307721077291856822655000,
  307791354550729046633000, 307911159959714141101700, 308061175374782123827400, 308201175374782123827400, 308271354550729046633000]

def emitB30_3 : List Nat := [
  308300937112002057069300, 308601285236010990638500, 308651285236010990638500, 308831215921292934644000, 308871054977501691233900,
  308930924144219726216000, 309060937112002057069300, 309081215921292934644000, 309101159959714141101700, 309130929701204841697000,
  309171354550729046633000, 309281285236010990638500, 309641114761201766796000, 309711244689500179822000, 309771244689500179822000,
  310201354550729046633000, 310251354550729046633000, 310361041001307453718100, 310381146606574878649500, 310410736756317641573000,
  310621159959714141101700, 310691244689500179822000, 310700765940325901617400, 310770903464778394948000, 311030957521537691420800,
  311051098055793300479300, 311080957521537691420800, 311091215921292934644000, 311190517310868395332600, 311421215921292934644000,
  311461215921292934644000, 311501041001307453718100, 311610891077830223669500, 311630872522572486129300, 311680965368699235570400,
  311791244689500179822000, 311811285236010990638500, 311850677357173462672800, 311920746557409537074000, 312060615532586223990000,
  312130941837290542123800, 312151001914676585016800, 312161354550729046633000, 312320961368165774200500, 312781285236010990638500,
  312811354550729046633000, 312871090644996085107200, 312911354550729046633000, 313021354550729046633000, 313091001914676585016800,
  313541054977501691233900, 313610824718992391829400, 313771124292219747228400, 314021124292219747228400, 314071124292219747228400,
  314350820796921076501300, 314461244689500179822000, 314491215921292934644000, 314550978430717477276700, 314560993458937782210500,
  314710969535968875627100, 314810990792113073994500, 314991285236010990638500, 315081045446483710801500, 315261050098485274290600,
  315320902371871341729000, 315581045446483710801500, 315610948506427991991000, 315651285236010990638500, 315671244689500179822000,
  315701285236010990638500, 315741134828271313011000, 315841244689500179822000, 316161354550729046633000, 316490848926148511802100,
  316610996198835201022000, 316651114761201766796000, 316801193606937803223000, 316841071229394641011400, 317771354550729046633000,
  317921114761201766796000, 318590755154586315976050, 318671285236010990638500, 319080827764913140300300, 319250827764913140300300,
  319340809018617510862900, 320040778031618768148550, 320050706853492757664700, 320130864023251202790000, 320160594460483092424800,
  320321041001307453718100, 320331159959714141101700, 320340800817302344779400, 320430769906851540860600, 320471193606937803223000,
  320481244689500179822000, 320570713533240850016300, 320660993458937782210500, 320801175374782123827400, 321131354550729046633000,
  321151124292219747228400, 321430804424907992160200, 321470976131765654807000, 321601098055793300479300, 321661054977501691233900,
  321730686089556279840300, 321781146606574878649500, 321891090644996085107200, 321910835812148462557600, 322181193606937803223000,
  322360696764593274528300, 322391045446483710801500, 322441193606937803223000, 322650988194564433668400, 322911354550729046633000,
  323171215921292934644000, 323181071229394641011400, 323211054977501691233900, 323401024967042446200200, 323501159959714141101700,
  324180706853492757664700, 324220778031618768148550, 324281045446483710801500, 324350864023251202790000, 324421159959714141101700,
  324450594460483092424800, 324471193606937803223000, 324511193606937803223000, 324541244689500179822000, 324551024967042446200200,
  324560993458937782210500, 324610713533240850016300, 324630976131765654807000, 324671175374782123827400, 324691159959714141101700,
  324751124292219747228400, 324791354550729046633000, 324850804424907992160200, 324891071229394641011400, 324961090644996085107200,
  325000686089556279840300, 325010835812148462557600, 325111098055793300479300, 325170696764593274528300, 325370988194564433668400,
  325681354550729046633000, 325931146606574878649500, 325990528553163069805350, 326450528553163069805350, 326500875801554768428400,
  326520886337606334211000, 326540331429997844689070, 326761193606937803223000, 326810817953127544447900, 327010993458937782210500,
  327051083745708936412000, 327221193606937803223000, 327360978430717477276700, 327371244689500179822000, 327640961368165774200500,
  327680988194564433668400, 327690700592133484866100, 327711134828271313011000, 327731354550729046633000, 327861041001307453718100,
  328220824718992391829400, 328311175374782123827400, 328341146606574878649500, 328420906817047598812400, 328520796955818732001400,
  328540662879227011272100, 328580983193522376202200, 328621021330278029112600, 328790796955818732001400, 328861146606574878649500,
  328991041001307453718100, 329011041001307453718100, 329030895038744033174000, 329181159959714141101700, 329330963348428503818400,
  329430801607820295490600, 329461146606574878649500, 329881114761201766796000, 329931021330278029112600, 329971215921292934644000,
  330140806904373853482000, 330211354550729046633000, 330261146606574878649500, 331070929701204841697000, 331361134828271313011000,
  331500866270536787995800, 331840806904373853482000, 332530793603549528137000, 332560623295379236373200, 332580892053447718206000,
  332871244689500179822000, 332880686842382921919500, 332900818421512475690500, 332931354550729046633000, 332981193606937803223000,
  333100969535968875627100, 333110834701025920050400, 333221244689500179822000, 333241215921292934644000, 333371011152008598118400,
  333910909115999421282200, 333940896053981179575800, 334060976131765654807000, 334101193606937803223000, 334211285236010990638500,
  334261032663146559813000, 334311285236010990638500, 334330845175708965956800, 334360793603549528137000, 334370763200428482806000,
  334461028741075244484700, 334520740132165634068400, 334541071229394641011400, 334570747939920036258200, 334591159959714141101700,
  334631054977501691233900, 334791285236010990638500, 334850904569762013606600, 334870451752847608412400, 334921354550729046633000,
  334951050098485274290600, 335001354550729046633000, 335090993458937782210500, 335101146606574878649500, 335210417859061144805000,
  335291098055793300479300, 335380856877354804575700, 335391071229394641011400, 335410888206819635426300, 335481244689500179822000,
  335761036745346011838400, 335900918879846377673800, 336031354550729046633000, 336060629132944400981200, 336091106060064067832900,
  336100629132944400981200, 336181098055793300479300, 336201050098485274290600, 336311354550729046633000, 336350996198835201022000,
  336370842751347804957400, 336471159959714141101700, 336550637538774701670200, 336700938662420710665800, 336740815187974411396800,
  336780895038744033174000, 336821007977138766660400, 336881215921292934644000, 337070633468883699410950, 337130677014119952993900,
  337140874971674486959000, 337191050098485274290600, 337251244689500179822000, 337381146606574878649500, 337430902371871341729000,
  337561028741075244484700, 337691215921292934644000, 337750496028168865826600, 337771193606937803223000, 337780710775564072992900,
  337891215921292934644000, 338020677014119952993900, 338041077291856822655000, 338050941837290542123800, 338290847660308824610000,
  338310874971674486959000, 338320769330481069185500, 338360703079459959380100, 338530941837290542123800, 338650785177515166363000,
  338830843351950210978700, 338890704722514098989600, 338911215921292934644000, 338941285236010990638500, 338990973884480069601100,
  339091285236010990638500, 339221050098485274290600, 339311354550729046633000, 339450534467003208648100, 339700948506427991991000,
  339761354550729046633000, 339800904569762013606600, 339931134828271313011000, 339950915105813579389000, 340130828801191843855000,
  340150880930884207183400, 340280861825360530912500, 340300874971674486959000, 340711175374782123827400, 340740948506427991991000,
  340811354550729046633000, 340831354550729046633000, 340921285236010990638500, 341540793603549528137000, 341570874971674486959000,
  341621028741075244484700, 341641244689500179822000, 341841354550729046633000, 341860880930884207183400, 341881285236010990638500,
  342031354550729046633000, 342170769330481069185500, 342411083745708936412000, 342530828801191843855000, 342551054977501691233900,
  342761114761201766796000, 342771159959714141101700, 342810849565128321679300, 343081028741075244484700, 343101028741075244484700,
  343110451752847608412400, 343141244689500179822000, 343151098055793300479300, 343490675653554747416000, 343820779611430455807700,
  343981014430990880417500, 344250874971674486959000, 344341244689500179822000, 344440874971674486959000, 345031041001307453718100,
  345271054977501691233900, 345600786875348819804800, 345621354550729046633000, 346761065513553257016500, 347010845791095523394500,
  347181244689500179822000, 347461175374782123827400, 347701106060064067832900, 347841054977501691233900, 348491060106831129988900,
  348921159959714141101700, 349031146606574878649500, 349050965368699235570400, 349070988194564433668400, 349090890111639132495800,
  349130767621037733255600, 349140903464778394948000, 349151354550729046633000, 349451124292219747228400, 350291077291856822655000,
  350410689652274044155400, 350901215921292934644000, 351400644713165187554350, 351990406934709289550200, 352640884502692467391300,
  352660884502692467391300, 352820913878804320207600, 352990959426357188490400, 353650978430717477276700, 353731083745708936412000,
  353770694156346586585700, 354121106060064067832900, 354491215921292934644000, 354631090644996085107200, 354861354550729046633000,
  355191004899972899985000, 355381021330278029112600, 355631215921292934644000, 355760847660308824610000, 355820854156098452087000,
  356111098055793300479300, 356131146606574878649500, 356731354550729046633000, 357311354550729046633000, 357531354550729046633000,
  357621098055793300479300, 357670978430717477276700, 357680694156346586585700, 357741083745708936412000, 357911106060064067832900,
  358211354550729046633000, 358320847660308824610000, 358340854156098452087000, 358431004899972899985000, 358451021330278029112600,
  358551215921292934644000, 358741146606574878649500, 358871354550729046633000, 358950816101222767724000, 359101193606937803223000,
  359181244689500179822000, 359200823723959306512500, 359370898115909899849500, 359461354550729046633000, 359470714691235593112200,
  359871028741075244484700, 359970769330481069185500, 359981215921292934644000, 360020916348065579244800, 360200582726633850701400,
  360270789653305230512400, 360320805244584712578200, 360390867030996726517800, 360401146606574878649500, 360510912666668266973200]

def emitB30_4 : List Nat := [
  360931083745708936412000, 361060840970885341606900, 361230746100787739115800, 361250769330481069185500, 361261215921292934644000,
  361290916348065579244800, 361490582726633850701400, 361530789653305230512400, 361540805244584712578200, 361581146606574878649500,
  361640867030996726517800, 361871083745708936412000, 361900840970885341606900, 361950746100787739115800, 361960730913770026262500,
  362030904569762013606600, 362130916348065579244800, 362291071229394641011400, 362340645793358490835700, 362490916348065579244800,
  362911175374782123827400, 363051124292219747228400, 363350744968272803410500, 363671285236010990638500, 364931175374782123827400,
  365540800032984598676800, 365570925504784931793800, 365621146606574878649500, 366011354550729046633000, 366111159959714141101700,
  366291083745708936412000, 366370957521537691420800, 366500990792113073994500, 366640945116272824423000, 367100800032984598676800,
  367131146606574878649500, 367180990792113073994500, 367251354550729046633000, 367311083745708936412000, 367391159959714141101700,
  367450957521537691420800, 367550945116272824423000, 367630925504784931793800, 367841193606937803223000, 367861004899972899985000,
  367970551770444209601900, 367980737799079957798900, 368011032663146559813000, 368070941837290542123800, 368080996198835201022000,
  368141159959714141101700, 368160884502692467391300, 368171354550729046633000, 368241215921292934644000, 368271285236010990638500,
  368280756915638116839600, 368300773736480048588600, 368380829323386241970000, 368420553947311171732100, 368741354550729046633000,
  368771244689500179822000, 368821285236010990638500, 368900696903772141810600, 368990773736480048588600, 369130749577383523437200,
  369141285236010990638500, 369300863285240473027700, 369390884502692467391300, 369420941837290542123800, 369470847660308824610000,
  369480737799079957798900, 369561354550729046633000, 369581285236010990638500, 369600756915638116839600, 369741244689500179822000,
  369810800032984598676800, 369831032663146559813000, 369880551770444209601900, 369910993458937782210500, 369930996198835201022000,
  369961215921292934644000, 370110818421512475690500, 370130983193522376202200, 370150898115909899849500, 370170990792113073994500,
  370190924144219726216000, 370260883597708915399600, 370270716538475356656500, 370301159959714141101700, 370390786875348819804800,
  370411244689500179822000, 370430953817410523385900, 370450902371871341729000, 370490999015922897691600, 370511285236010990638500,
  370571285236010990638500, 370711054977501691233900, 370730454576450063583900, 370750878333335566857400, 370871054977501691233900,
  370890796577746448010800, 370901083745708936412000, 370950845175708965956800, 370991050098485274290600, 371010999015922897691600,
  371031014430990880417500, 371080937112002057069300, 371121032663146559813000, 371170760533603774589800, 371181244689500179822000,
  371220703822957808131800, 371241065513553257016500, 371260878333335566857400, 371291354550729046633000, 371380999015922897691600,
  371420845175708965956800, 371500983193522376202200, 371541134828271313011000, 371551354550729046633000, 371590818421512475690500,
  371650454576450063583900, 371670896053981179575800, 371681285236010990638500, 371690778031618768148550, 371701032663146559813000,
  371931083745708936412000, 372020818892101579431800, 372571098055793300479300, 372911071229394641011400, 373000934081467107536400,
  373191021330278029112600, 373240689652274044155400, 373250563418327150297800, 373261354550729046633000, 373290584747812019352500,
  373400971686589397723600, 373470867797284001074800, 374670980783767218296100, 374921011152008598118400, 375040750525257918891600,
  375090791071768729708100, 376100866270536787995800, 376660742520987151538000, 376700728210902787470600, 376750755905528518189200,
  376791215921292934644000, 377821285236010990638500, 378060684847304279984600, 378570900221250819632600, 379120867797284001074800,
  379410843351950210978700, 379691011152008598118400, 380021041001307453718100, 380350867797284001074800, 380470867797284001074800,
  380540943463342629301800, 380650742520987151538000, 380810843351950210978700, 380850980783767218296100, 381080791071768729708100,
  381340750525257918891600, 381380866270536787995800, 381451285236010990638500, 381691215921292934644000, 381770755905528518189200,
  381820728210902787470600, 382150684847304279984600, 382360900221250819632600, 382621041001307453718100, 382630434693590209014600,
  382710434693590209014600, 382720996198835201022000, 382751244689500179822000, 382830619949708055303800, 382920929701204841697000,
  382960965368699235570400, 383130745419740838863200, 383161011152008598118400, 383461285236010990638500, 383640644713165187554350,
  383760996198835201022000, 383781244689500179822000, 383890929701204841697000, 383920965368699235570400, 383931215921292934644000,
  383951021330278029112600, 383970745419740838863200, 384061011152008598118400, 384201285236010990638500, 384280778031618768148550,
  384421146606574878649500, 384500910285603397601400, 384510714857763525018350, 384520799254770554471250, 384630474268413072444250,
  384661354550729046633000, 384700759486473787860300, 384710774037232154984200, 384720906817047598812400, 384850538813684927955500,
  384930538813684927955500, 384971036745346011838400, 384981090644996085107200, 385120799254770554471250, 385150906817047598812400,
  385170888206819635426300, 385181028741075244484700, 385200759486473787860300, 385250714857763525018350, 385340856877354804575700,
  385411193606937803223000, 385430915105813579389000, 385481193606937803223000, 385680915105813579389000, 385761134828271313011000,
  385800774037232154984200, 385921090644996085107200, 385930815643556064982900, 385961014430990880417500, 385970653429330311596300,
  385980925504784931793800, 386050940237256407479700, 386170810742798154313400, 386201354550729046633000, 386220895038744033174000,
  386260872522572486129300, 386320993458937782210500, 386340931140078586907000, 386420540490024760788050, 386470825724025977179500,
  386511244689500179822000, 386540937112002057069300, 386631285236010990638500, 386690858968023286506900, 386861083745708936412000,
  386950937112002057069300, 387061354550729046633000, 387120940237256407479700, 387280745419740838863200, 387380537221385150010200,
  387420863285240473027700, 387450904569762013606600, 387480904569762013606600, 387500568725310828030100, 387541354550729046633000,
  387611285236010990638500, 387951354550729046633000, 387970852162676962005400, 387990857569399089033000, 388011354550729046633000,
  388511354550729046633000, 388591032663146559813000, 388670616151783248782200, 388861032663146559813000, 388890616151783248782200,
  389020858266266020642200, 389111050098485274290600, 389141285236010990638500, 389170937112002057069300, 389180801607820295490600,
  389201159959714141101700, 389310898115909899849500, 389480820796921076501300, 389571146606574878649500, 389881354550729046633000,
  389890822249731132792200, 389951215921292934644000, 390061285236010990638500, 390151215921292934644000, 390231159959714141101700,
  390301285236010990638500, 390330937112002057069300, 390340801607820295490600, 390351159959714141101700, 390381215921292934644000,
  390390898115909899849500, 390530937112002057069300, 390560820796921076501300, 390641354550729046633000, 390671215921292934644000,
  390690822249731132792200, 390801146606574878649500, 391181146606574878649500, 391310952015559973118100, 391340952015559973118100,
  391541354550729046633000, 391781354550729046633000, 391920800424374530790300, 392080873332293509391300, 392371244689500179822000,
  392501193606937803223000, 392781354550729046633000, 392861193606937803223000, 393020873332293509391300, 393141244689500179822000,
  393180926884117145027500, 393210503775855787809200, 393400532672013486484900, 393421090644996085107200, 393760836935755789250100,
  394091007977138766660400, 394381036745346011838400, 394720866270536787995800, 395151159959714141101700, 395221285236010990638500,
  395300971686589397723600, 395320532672013486484900, 395401285236010990638500, 395470836935755789250100, 395511159959714141101700,
  395581007977138766660400, 395620971686589397723600, 395691036745346011838400, 396400612193884620716300, 397170971686589397723600,
  397191215921292934644000, 397291285236010990638500, 397450886337606334211000, 397590856190066875799400, 397700993458937782210500,
  397910790006039282309200, 398091098055793300479300, 398541244689500179822000, 398811354550729046633000, 399861146606574878649500,
  400600993458937782210500, 400650790006039282309200, 400691098055793300479300, 400921244689500179822000, 401001354550729046633000,
  401401146606574878649500, 401651244689500179822000, 401790726324054357032400, 401801028741075244484700, 402011285236010990638500,
  402320809446883690063000, 402511244689500179822000, 402850963348428503818400, 403001354550729046633000, 403061007977138766660400,
  403720855507470368759300, 404341011152008598118400, 404411146606574878649500, 404421193606937803223000, 404751114761201766796000,
  404791244689500179822000, 404810895038744033174000, 404831028741075244484700, 404861285236010990638500, 404930809446883690063000,
  405111244689500179822000, 405170963348428503818400, 405221007977138766660400, 405271354550729046633000, 405480855507470368759300,
  405551011152008598118400, 405571193606937803223000, 405601146606574878649500, 405631114761201766796000, 405730796201098168463100,
  405750894033710447823900, 405941146606574878649500, 405990822249731132792200, 406130758450195084305600, 406140758450195084305600,
  406350945116272824423000, 406430467386162296445900, 406440467386162296445900, 406540820317303850152000, 406570580701916797168400,
  406600813833551900621200, 406641354550729046633000, 406711045446483710801500, 406801077291856822655000, 407031159959714141101700,
  407151159959714141101700, 407181001914676585016800, 407231036745346011838400, 407780878333335566857400, 407791159959714141101700,
  407840878333335566857400, 408450640188968776220900, 408481215921292934644000, 408521354550729046633000, 408570640188968776220900,
  408581354550729046633000, 408600802805439400162200, 408630802805439400162200]

def emitB31_0 : List Nat := [
  199680726832471287395800, 199710800403150785270000, 199750850046839416659000, 199770643904535798943200, 199780375181648470080780,
  199900486476370253991000, 199960474760861038924600, 200130139744007778717160, 200160809500328605842500, 200200894230114644563000,
  200250809500328605842500, 200290735533608986358700, 200410843147552267963900, 200440796147189343390300, 200521004091343511373900,
  200610679572030192816450, 200631044637854322190400, 201051113952572378185000, 201080865461907399384800, 201130590841710692726200,
  201160975323136266195900, 201220577354970875999700, 201260577354970875999700, 201320506188348043281400, 201400684906628263345800,
  201540443022138352355000, 201851044637854322190400, 201970687684584674053300, 202340745064626966791300, 202390934776625455379300,
  202411044637854322190400, 202620639459359541859800, 202710770553851929670200, 203030865461907399384800, 203041044637854322190400,
  203150919361557472653600, 203160919361557472653600, 203390865461907399384800, 203790836693700154206800, 204200572342532157742840,
  204450857457636632031100, 204490693483310439088300, 205230639459359541859800, 205811004091343511373900, 207990792064989891364800,
  208090625672380119547800, 208110750193956405546300, 208180792064989891364800, 208221113952572378185000, 208231113952572378185000,
  208260503920677176178400, 208390667361760512726500, 208400438725534764010700, 208430716923381022972700, 208440588725229573521900,
  208480788142918576036700, 208490706198827987612900, 208510621227203862464400, 208520874163045098347900, 208530792064989891364800,
  208640726832471287395800, 208690667361760512726500, 208910595774217348976350, 208920539973281160261500, 209120767378982098212250,
  209181044637854322190400, 209990919361557472653600, 210150830631237972563200, 210160830631237972563200, 210181113952572378185000,
  210190713219253854937700, 210330843147552267963900, 210691113952572378185000, 210730594656887289163800, 210831113952572378185000,
  211090713219253854937700, 211290830631237972563200, 211330594656887289163800, 211520634373517818510700, 211710728937812207179000,
  212130742595365707754100, 212140728937812207179000, 212530843147552267963900, 212560975323136266195900, 212700894230114644563000,
  212710357684447705996400, 212950597473974985833400, 213131004091343511373900, 213260481516676140053800, 213270784368885777751950,
  213320784368885777751950, 213350479388936295325200, 213381113952572378185000, 213451004091343511373900, 213550541921394717443700,
  213600599203124696839600, 213611004091343511373900, 213800906008418210201300, 214021113952572378185000, 214140608966971653231150,
  214421004091343511373900, 214431004091343511373900, 214511004091343511373900, 214520865461907399384800, 214531113952572378185000,
  214650919361557472653600, 214760764301816231536900, 214870824915396588568400, 214880679572030192816450, 214960780732121360664400,
  215120777222989379537500, 215130646669688931994300, 215160694987098175542300, 215551044637854322190400, 215561044637854322190400,
  216281044637854322190400, 216441044637854322190400, 217040545594595644316700, 217330583622081572277300, 217760865461907399384800,
  218300361065646713959780, 218881113952572378185000, 219321004091343511373900, 220250883694063078780300, 222350543908215039116300,
  222420857457636632031100, 222661113952572378185000, 222690255355301697078560, 222830255355301697078560, 222960857457636632031100,
  223030865461907399384800, 223071044637854322190400, 223171044637854322190400, 223200761316519916568700, 223621044637854322190400,
  223741113952572378185000, 224670784368885777751950, 224780745064626966791300, 225220701239133873675700, 225331044637854322190400,
  226120830631237972563200, 226220953008781134774800, 226960857457636632031100, 227710874163045098347900, 227970595774217348976350,
  227990883694063078780300, 228060493496796121315800, 228230512336856408349500, 228250564235749848864600, 228260704518116155974800,
  228300784368885777751950, 228680857457636632031100, 228850796147189343390300, 228870796147189343390300, 229961004091343511373900,
  230410788142918576036700, 230430836693700154206800, 233911113952572378185000, 234250883694063078780300, 234330713219253854937700,
  234350906008418210201300, 234471044637854322190400, 234530668517842752834100, 234541113952572378185000, 234660755600678532573900,
  234860824915396588568400, 234940906008418210201300, 235000666218890930364200, 235261113952572378185000, 235270883694063078780300,
  235420668517842752834100, 235450824915396588568400, 235561004091343511373900, 235650824915396588568400, 235671113952572378185000,
  235690865461907399384800, 236120857457636632031100, 236650610257312136821900, 237250809500328605842500, 237310819508674461540700,
  238150830631237972563200, 239940809500328605842500, 240371004091343511373900, 240400975323136266195900, 240520627199127332626600,
  240671044637854322190400, 240760745064626966791300, 241790625672380119547800, 241910506188348043281400, 241981113952572378185000,
  242081113952572378185000, 242111113952572378185000, 242351113952572378185000, 242470726832471287395800, 242640608966971653231150,
  242910506188348043281400, 243001113952572378185000, 243100773832834211969400, 243140458987498154803800, 243200819508674461540700,
  243430804848327042353300, 243750975323136266195900, 243780975323136266195900, 244641044637854322190400, 244710894230114644563000,
  244940800403150785270000, 245030537747434100167200, 246091044637854322190400, 246350953008781134774800, 246460975323136266195900,
  246580975323136266195900, 247130894230114644563000, 248000934776625455379300, 248470724770542567122200, 248590698064264042217700,
  249501113952572378185000, 250100755600678532573900, 251031044637854322190400, 251040742595365707754100, 251381044637854322190400,
  251511004091343511373900, 252061113952572378185000, 252390718828200520042150, 252420906008418210201300, 252591113952572378185000,
  252891004091343511373900, 253070472606676661449100, 253080742595365707754100, 253290894230114644563000, 253860792064989891364800,
  254630975323136266195900, 256281113952572378185000, 257050975323136266195900, 257710906008418210201300, 258561113952572378185000,
  259190809500328605842500, 259371004091343511373900, 259440919361557472653600, 259450894230114644563000, 259580836693700154206800,
  259910559044963888662850, 260310670870892493853500, 260320385059802926059200, 260411004091343511373900, 260450906008418210201300,
  260530906008418210201300, 260801113952572378185000, 260850448666269442850100, 260890809500328605842500, 261020843147552267963900,
  261140975323136266195900, 261180758417766229243500, 261241044637854322190400, 261261044637854322190400, 261310919361557472653600,
  261490975323136266195900, 261780843147552267963900, 261850687684584674053300, 261870687684584674053300, 262220682203761024553850,
  262340894230114644563000, 262800694987098175542300, 263640824915396588568400, 263680612889042968559300, 263970636040223067031900,
  264170975323136266195900, 264260770553851929670200, 264410788142918576036700, 264460953008781134774800, 264600883694063078780300,
  264621044637854322190400, 264770830631237972563200, 264810474760861038924600, 264940894230114644563000, 265190953008781134774800,
  265751044637854322190400, 266040819508674461540700, 266070953008781134774800, 266111004091343511373900, 266310906008418210201300,
  266661004091343511373900, 266840682203761024553850, 266901113952572378185000, 267051044637854322190400, 268051113952572378185000,
  271610906008418210201300, 272310770553851929670200, 274310442051256939658900, 274720442051256939658900, 274910953008781134774800,
  274940597473974985833400, 275800874163045098347900, 276040874163045098347900, 276650479564528965551800, 277000804848327042353300,
  277040919361557472653600, 277190597473974985833400, 277210819508674461540700, 277330975323136266195900, 277430678281689709225700,
  277791044637854322190400, 277840777222989379537500, 278010883694063078780300, 278150934776625455379300, 278251044637854322190400,
  278270492291962269698400, 278610535878220798951950, 278740608327991843354100, 278880792064989891364800, 279310761316519916568700,
  279410953008781134774800, 279460919361557472653600, 279820850046839416659000, 279930590308376095189900, 280060544579358497914900,
  280101044637854322190400, 280230411398740914332800, 281421044637854322190400, 281450418298028063028000, 281650499964117155559300,
  281890735533608986358700, 281950646669688931994300, 282011044637854322190400, 282460623425094534341900, 282480731088432729275350,
  283311044637854322190400, 283560934776625455379300, 284500819508674461540700, 284871044637854322190400, 285950646669688931994300,
  286390850046839416659000, 286401113952572378185000, 287031044637854322190400, 287790770553851929670200, 288790796147189343390300,
  288950865461907399384800, 289611113952572378185000, 289661044637854322190400, 290170865461907399384800, 290280894230114644563000,
  290661113952572378185000, 291410595213991794109400, 292291113952572378185000, 292330698064264042217700, 292730953008781134774800,
  292750598623412928406900, 292810975323136266195900, 293050824915396588568400, 293661113952572378185000, 293691113952572378185000,
  293761113952572378185000, 294540857457636632031100, 294671113952572378185000, 294941113952572378185000, 295570857457636632031100,
  296150975323136266195900, 296160865461907399384800, 296271044637854322190400, 296641044637854322190400, 296940865461907399384800,
  297020894230114644563000, 297900610257312136821900, 298720975323136266195900, 299761004091343511373900, 299921044637854322190400,
  300000975323136266195900, 300021004091343511373900, 300030953008781134774800, 300050975323136266195900, 300071113952572378185000,
  303330874163045098347900, 303340874163045098347900, 303431113952572378185000, 304171044637854322190400, 304351044637854322190400,
  304520796147189343390300, 304951113952572378185000, 306930975323136266195900, 307070645739449665762900, 308281004091343511373900,
  310380605192938854946500, 310700784368885777751950, 311190580680693051648000, 311850767378982098212250, 311920883694063078780300,
  312060819508674461540700, 312370788142918576036700, 312460788142918576036700, 313020755600678532573900, 313540796147189343390300,
  315320659623094151184500, 315690934776625455379300, 316890934776625455379300, 318590934776625455379300, 319080906008418210201300,
  319180906008418210201300, 319250906008418210201300, 319341044637854322190400, 319750906008418210201300, 320041004091343511373900]

def emitB31_1 : List Nat := [
  320050602153191136509300, 320131113952572378185000, 320160544243223727644400, 320340919361557472653600, 320430687684584674053300,
  320571113952572378185000, 321130784368885777751950, 321470672068511598525000, 321560809500328605842500, 321600894230114644563000,
  321730814379345022785700, 321780830631237972563200, 321911113952572378185000, 322360819508674461540700, 323170953008781134774800,
  324180602153191136509300, 324221004091343511373900, 324351113952572378185000, 324450544243223727644400, 324611113952572378185000,
  324630672068511598525000, 324790784368885777751950, 325000814379345022785700, 325011113952572378185000, 325080809500328605842500,
  325110894230114644563000, 325170819508674461540700, 325930830631237972563200, 325990792064989891364800, 326450792064989891364800,
  326540297387779848434500, 326761113952572378185000, 326810843147552267963900, 327690975323136266195900, 328220677007787131482700,
  328520361065646713959780, 328541044637854322190400, 328790361065646713959780, 329430830631237972563200, 329880742595365707754100,
  332560894230114644563000, 332580702865185960853700, 332680755600678532573900, 332880874163045098347900, 333100919361557472653600,
  333220737832560808828600, 334370589250165162136200, 334520906008418210201300, 334570573235395232173000, 334870518628238949406500,
  335191004091343511373900, 335210388181804662180600, 335290865461907399384800, 336470674507656910940940, 336550715054167721757400,
  337070633550467904859200, 337130830631237972563200, 337140747596407765220200, 337750481516676140053800, 337780865461907399384800,
  338020830631237972563200, 338360850046839416659000, 338830836693700154206800, 338890850046839416659000, 339450752860781113762400,
  340131004091343511373900, 340300747596407765220200, 342531004091343511373900, 342770674507656910940940, 343110518628238949406500,
  343150865461907399384800, 343490788142918576036700, 349070541921394717443700, 349131113952572378185000, 349151113952572378185000,
  350410934776625455379300, 351990518628238949406500, 352580919361557472653600, 352730919361557472653600, 352990698064264042217700,
  354860919361557472653600, 355820814379345022785700, 358210919361557472653600, 358340814379345022785700, 359200809500328605842500,
  359970874163045098347900, 360010390534854403200000, 360080843147552267963900, 360200698064264042217700, 360510824915396588568400,
  360740804848327042353300, 361061113952572378185000, 361250874163045098347900, 361300390534854403200000, 361350843147552267963900,
  361360804848327042353300, 361490698064264042217700, 361901113952572378185000, 362030819508674461540700, 362290894230114644563000,
  362340752860781113762400, 365570595774217348976350, 366370874163045098347900, 367450874163045098347900, 367631004091343511373900,
  367860539973281160261500, 367970722750271835370200, 367980975323136266195900, 368160975323136266195900, 368270883694063078780300,
  368280777222989379537500, 368420767378982098212250, 368900612224588696692400, 369140883694063078780300, 369390975323136266195900,
  369470934776625455379300, 369480975323136266195900, 369600777222989379537500, 369880722750271835370200, 370380894230114644563000,
  370391113952572378185000, 370700975323136266195900, 370730538378351019493600, 371090894230114644563000, 371220919361557472653600,
  371650538378351019493600, 372020919361557472653600, 373240934776625455379300, 373250651455291049757800, 373290752860781113762400,
  375040953008781134774800, 376281113952572378185000, 378060975323136266195900, 379410627971331942017700, 380501113952572378185000,
  380810627971331942017700, 381340953008781134774800, 382150975323136266195900, 382630567146558264671700, 382710567146558264671700,
  382830819508674461540700, 383130726832471287395800, 383640621227203862464400, 383970726832471287395800, 384281113952572378185000,
  384500770553851929670200, 384510804848327042353300, 384630650479673555221300, 384700718828200520042150, 384850707908271323542950,
  384930707908271323542950, 385200718828200520042150, 385250804848327042353300, 385481113952572378185000, 385920934776625455379300,
  385971113952572378185000, 386170865461907399384800, 386420590841710692726200, 386461044637854322190400, 386510975323136266195900,
  386690758417766229243500, 387380561009663627042500, 387500740185610549848100, 387971044637854322190400, 388670637735178898409200,
  388890637735178898409200, 388990590841710692726200, 389020953008781134774800, 390800919361557472653600, 391180919361557472653600,
  391310874163045098347900, 391340874163045098347900, 393180742595365707754100, 393210508743655485743100, 393400830631237972563200,
  393761044637854322190400, 395320830631237972563200, 395471044637854322190400, 396400627199127332626600, 397910809500328605842500,
  400650809500328605842500, 403721044637854322190400, 405481044637854322190400, 405990735533608986358700, 406350709647445594729800,
  406430605192938854946500, 406440605192938854946500, 406540777222989379537500, 406570755600678532573900, 406600777222989379537500,
  406640934776625455379300, 406800503920677176178400, 407781044637854322190400, 407841044637854322190400, 408450800403150785270000,
  408570800403150785270000]

def emitB32_0 : List Nat := [
  199680703531527979632450, 199690997220705332738300, 199710653821984884223600, 199750461562077865536900, 199760935316784492115800,
  199770439571697099557000, 199780624136340011441300, 199791012635773315464000, 199810671962017111687000, 199870775923411902302400,
  199900640468845621771350, 199921191811720238269600, 199930874006337203475000, 199941191811720238269600, 199960503670589874016000,
  199970740725769586584500, 200040961553210938865000, 200130307855069872474700, 200160593166519709825750, 200200927905987276743700,
  200241191811720238269600, 200250768401069778543600, 200290961553210938865000, 200371030867928994859500, 200410699813627655457100,
  200440701284242394426600, 200480830719928973847000, 200520952022192958432500, 200560808947580589360100, 200570739632862533365550,
  200610619453210043031400, 200701012635773315464000, 200830943321055259469600, 200940806796960067263700, 201080638078293536415850,
  201130663491347364470700, 201141191811720238269600, 201160557952312417951300, 201170961553210938865000, 201220682436700157593300,
  201260682436700157593300, 201320830719928973847000, 201350927905987276743700, 201400493432723712456100, 201420952022192958432500,
  201540524355581056827000, 201590892238492882870400, 201611191811720238269600, 201790897367822321625600, 201821053182284126280500,
  201850830719928973847000, 201930798629156965837000, 201950961553210938865000, 201970741830753205243000, 202020787506593454814600,
  202030800609419695455000, 202210833459826392658500, 202230935316784492115800, 202340433029998238926900, 202390833459826392658500,
  202410806796960067263700, 202470811145471261237600, 202480983867566070286000, 202500997220705332738300, 202550768401069778543600,
  202560800609419695455000, 202710972089262504647600, 202801191811720238269600, 202820997220705332738300, 203020811145471261237600,
  203030848412999789754900, 203071030867928994859500, 203091122497002182275000, 203150418706405837556800, 203160869924137751449500,
  203240792913315581842150, 203291191811720238269600, 203390772846246035627000, 203580882707474902438000, 203750769860949720658900,
  203810902774544448653000, 203901191811720238269600, 203910855082137239622100, 203920892238492882870400, 203981030867928994859500,
  204051012635773315464000, 204190952022192958432500, 204200687469208546344900, 204260943321055259469600, 204450576325910836627700,
  204490616554456355706200, 204620961553210938865000, 204890897367822321625600, 204930997220705332738300, 205511122497002182275000,
  205530768401069778543600, 205590878262298645354600, 205810811145471261237600, 205960855082137239622100, 205971191811720238269600,
  205981191811720238269600, 206160749927659458609800, 206330892238492882870400, 206430710593284701027800, 206481081950491371458500,
  206520943321055259469600, 206590800609419695455000, 206871012635773315464000, 206890892238492882870400, 207110997220705332738300,
  207360787506593454814600, 207400892238492882870400, 207540787506593454814600, 207780983867566070286000, 207861081950491371458500,
  207990943321055259469600, 208030596227983291786500, 208050952022192958432500, 208060892238492882870400, 208081012635773315464000,
  208090733314972371212400, 208110630864540719773500, 208131081950491371458500, 208180943321055259469600, 208201191811720238269600,
  208220768401069778543600, 208230768401069778543600, 208260650647115052765600, 208391030867928994859500, 208400541682753184230700,
  208410961553210938865000, 208430740725769586584500, 208440848412999789754900, 208450815691708668913200, 208480697647477977339100,
  208490765543732534138000, 208510842160964091621400, 208520760062908884638500, 208540802629690427206900, 208590997220705332738300,
  208610961553210938865000, 208641191811720238269600, 208691030867928994859500, 208720815691708668913200, 208891191811720238269600,
  208911191811720238269600, 208920576325910836627700, 208960815691708668913200, 209080921006700128048500, 209120908490385832647900,
  209140869924137751449500, 209190862228033637836700, 209281191811720238269600, 209340848412999789754900, 209370866002066436121300,
  209400882707474902438000, 209430943321055259469600, 209570935316784492115800, 209640762765776123430400, 209750677062272556924200,
  209770677062272556924200, 209850833459826392658500, 209860908490385832647900, 209980874006337203475000, 209990851691982072054000,
  210090927905987276743700, 210160952022192958432500, 210190683671283739823300, 210211191811720238269600, 210290813392756846443500,
  210321191811720238269600, 210330735376901091485900, 210350813392756846443500, 210381012635773315464000, 210460825455555625304900,
  210471191811720238269600, 210501030867928994859500, 210690787506593454814600, 210730997220705332738300, 210761191811720238269600,
  210851191811720238269600, 210931191811720238269600, 210980972089262504647600, 211090683671283739823300, 211281122497002182275000,
  211290952022192958432500, 211330997220705332738300, 211470634977269862159850, 211490902774544448653000, 211501081950491371458500,
  211510815691708668913200, 211520761405210917852600, 211601122497002182275000, 211611122497002182275000, 211701081950491371458500,
  211710836276914089328100, 211851081950491371458500, 211870736424031078215400, 211951012635773315464000, 212021191811720238269600,
  212051122497002182275000, 212130921006700128048500, 212140836276914089328100, 212351012635773315464000, 212400902774544448653000,
  212530769860949720658900, 212560997220705332738300, 212700961553210938865000, 212710528217064669604900, 212950566044961450005700,
  213051191811720238269600, 213061122497002182275000, 213071191811720238269600, 213121122497002182275000, 213130592915578549283200,
  213150952022192958432500, 213190882707474902438000, 213221081950491371458500, 213260369074169554866050, 213270698364326925200400,
  213311053182284126280500, 213320698364326925200400, 213330744078038790448900, 213340983867566070286000, 213350567007432787426600,
  213380858591269220749200, 213450584507266828229100, 213460869924137751449500, 213481012635773315464000, 213550762765776123430400,
  213600552955579683706600, 213610800609419695455000, 213631191811720238269600, 213670862228033637836700, 213680935316784492115800,
  213801053182284126280500, 213870842160964091621400, 214020730299668554143600, 214070768401069778543600, 214140892238492882870400,
  214350842160964091621400, 214420902774544448653000, 214430902774544448653000, 214510902774544448653000, 214520584277117129401200,
  214530733314972371212400, 214570738551770922944000, 214601053182284126280500, 214620997220705332738300, 214640785767419183627600,
  214760687469208546344900, 214870708980346508039450, 214880935316784492115800, 214900972089262504647600, 214911081950491371458500,
  214940943321055259469600, 214961081950491371458500, 215120768401069778543600, 215130718191875398820000, 215140804691619147480500,
  215160662481237765820300, 215170874006337203475000, 215180739632862533365550, 215200887359476465927200, 215210902774544448653000,
  215310530742115766493600, 215371053182284126280500, 215470921006700128048500, 215481191811720238269600, 215510897367822321625600,
  215600798629156965837000, 215611191811720238269600, 215791053182284126280500, 216021081950491371458500, 216080602371436811784500,
  216190972089262504647600, 216280851691982072054000, 216440347027408910125100, 216541081950491371458500, 216721191811720238269600,
  216740983867566070286000, 216830855082137239622100, 216880858591269220749200, 216960862228033637836700, 217040627976253304895000,
  217081191811720238269600, 217131122497002182275000, 217330715594326758494000, 217411012635773315464000, 217670771342458299172900,
  217760935316784492115800, 218061122497002182275000, 218071081950491371458500, 218300935316784492115800, 218541122497002182275000,
  218550897367822321625600, 218601122497002182275000, 218880687469208546344900, 218970983867566070286000, 219160943321055259469600,
  219320952022192958432500, 219340744078038790448900, 219430820454513567838700, 219451030867928994859500, 220250617511401457321350,
  220300943321055259469600, 221320820454513567838700, 221341053182284126280500, 222350645853168823853600, 222380561733140771945100,
  222401053182284126280500, 222531191811720238269600, 222601122497002182275000, 222660862228033637836700, 222690389064067152221370,
  222701012635773315464000, 222780902774544448653000, 222801053182284126280500, 222830389064067152221370, 222851122497002182275000,
  222901191811720238269600, 222910902774544448653000, 222941012635773315464000, 223030584277117129401200, 223070698364326925200400,
  223200561733140771945100, 223381191811720238269600, 223430749927659458609800, 223521122497002182275000, 223591012635773315464000,
  223741030867928994859500, 224431122497002182275000, 224670764145108336664000, 224780679415322297943600, 225190935316784492115800,
  225211012635773315464000, 225220438602905884097300, 225611191811720238269600, 225760983867566070286000, 225770997220705332738300,
  226021012635773315464000, 226041122497002182275000, 226090892238492882870400, 226120662985017168816000, 226151012635773315464000,
  226220927905987276743700, 226350983867566070286000, 226661122497002182275000, 226811012635773315464000, 226860815691708668913200,
  227211191811720238269600, 227390842160964091621400, 227630935316784492115800, 227660675333122845918150, 227670675333122845918150,
  227681191811720238269600, 227710792913315581842150, 227910892238492882870400, 227970703531527979632450, 227990732299735224810500,
  228051081950491371458500, 228060771342458299172900, 228100626914296422149000, 228121122497002182275000, 228180811145471261237600,
  228230345095494457202300, 228250401748058936469100, 228260553292280338497000, 228331081950491371458500, 228360761405210917852600,
  228401122497002182275000, 228411030867928994859500, 228461030867928994859500, 228550630864540719773500, 228561012635773315464000,
  228590997220705332738300, 228651012635773315464000, 228680902774544448653000, 228710943321055259469600, 228850528611542498706600,
  228870528611542498706600, 228940997220705332738300, 228990582907232693585000, 229090732299735224810500, 229141081950491371458500,
  229340839175667776653400, 229520983867566070286000, 229711081950491371458500, 230410691417089643723600, 230430715594326758494000,
  231100972089262504647600, 231301191811720238269600, 231561191811720238269600, 233441191811720238269600, 233761081950491371458500,
  233810825455555625304900, 233830961553210938865000, 233841191811720238269600, 233850757431178052901200, 233890842160964091621400]

def emitB32_1 : List Nat := [
  233910833459826392658500, 233950943321055259469600, 233980921006700128048500, 234030757431178052901200, 234131191811720238269600,
  234160921006700128048500, 234210972089262504647600, 234250845238129958296900, 234291122497002182275000, 234310711409615764943900,
  234330549001192969809900, 234361030867928994859500, 234390636515761746107800, 234471012635773315464000, 234480737482242011269100,
  234501191811720238269600, 234520839175667776653400, 234530531417337778222300, 234540862228033637836700, 234571122497002182275000,
  234581081950491371458500, 234721191811720238269600, 234751122497002182275000, 234780630498909599462550, 234811053182284126280500,
  234851191811720238269600, 234861122497002182275000, 234940839175667776653400, 235000651094543092257600, 235061122497002182275000,
  235260862228033637836700, 235270845238129958296900, 235291122497002182275000, 235311191811720238269600, 235321191811720238269600,
  235420531417337778222300, 235450830719928973847000, 235530897367822321625600, 235561191811720238269600, 235600775923411902302400,
  235650830719928973847000, 235670624479393521120300, 235690902774544448653000, 235781081950491371458500, 235880927905987276743700,
  236011122497002182275000, 236081012635773315464000, 236120791078401715022500, 236141122497002182275000, 236161191811720238269600,
  236180855082137239622100, 236270851691982072054000, 236291012635773315464000, 236310833459826392658500, 236371122497002182275000,
  236520855082137239622100, 236650664511764381894800, 236811122497002182275000, 237130815691708668913200, 237231081950491371458500,
  237311122497002182275000, 237351030867928994859500, 237920777498247599116250, 238150798629156965837000, 238791053182284126280500,
  238841012635773315464000, 240290751139795511844300, 240330825455555625304900, 240340972089262504647600, 240370707393011592410400,
  240380997220705332738300, 240400733314972371212400, 240460902774544448653000, 240491191811720238269600, 240520660491122334090800,
  240621191811720238269600, 240661122497002182275000, 240670632713022187183900, 240760631599838150299500, 240801081950491371458500,
  240850908490385832647900, 241020842160964091621400, 241151081950491371458500, 241180842160964091621400, 241200908490385832647900,
  241780728338821415305900, 241790627621013144458200, 241800997220705332738300, 241850728338821415305900, 241870952022192958432500,
  241910486539615315037300, 241980699086351722549100, 242020952022192958432500, 242080908490385832647900, 242111191811720238269600,
  242120721763683659027900, 242130972089262504647600, 242180892238492882870400, 242221191811720238269600, 242310972089262504647600,
  242351191811720238269600, 242470681217172848211500, 242640892238492882870400, 242910486539615315037300, 243000908490385832647900,
  243100758738386209636400, 243140510577210820521600, 243200545508774546202500, 243220815691708668913200, 243411053182284126280500,
  243431081950491371458500, 243441053182284126280500, 243520645005706124756450, 243570882707474902438000, 243730645005706124756450,
  243750808947580589360100, 243780808947580589360100, 243960882707474902438000, 244020961553210938865000, 244130669776137730437100,
  244250804691619147480500, 244491191811720238269600, 244521081950491371458500, 244600739632862533365550, 244641191811720238269600,
  244651081950491371458500, 244710914552848014291400, 244901081950491371458500, 244940921006700128048500, 245011191811720238269600,
  245030577178794471379850, 245150802629690427206900, 245170935316784492115800, 245251122497002182275000, 245351122497002182275000,
  245550758738386209636400, 245730921006700128048500, 245761012635773315464000, 245940855082137239622100, 246050705830479802102300,
  246090789276551164754600, 246131053182284126280500, 246350921006700128048500, 246460550138491987036900, 246560878262298645354600,
  246580550138491987036900, 246810828053104265631000, 247090798629156965837000, 247131030867928994859500, 247420798629156965837000,
  247480943321055259469600, 247731053182284126280500, 248000758738386209636400, 248161191811720238269600, 248470771342458299172900,
  248590644584652871122100, 248630869924137751449500, 249300811145471261237600, 249351191811720238269600, 249500699086351722549100,
  250330721763683659027900, 250351081950491371458500, 250791012635773315464000, 250800943321055259469600, 250960892238492882870400,
  250980862228033637836700, 251030851691982072054000, 251040704291987918154400, 251050848412999789754900, 251061081950491371458500,
  251120774372993248705800, 251360774372993248705800, 251380851691982072054000, 251400785767419183627600, 251420851691982072054000,
  251430851691982072054000, 251510742948083265055550, 251591122497002182275000, 251630738551770922944000, 251661053182284126280500,
  251710815691708668913200, 251760833459826392658500, 251910935316784492115800, 251931053182284126280500, 251960654283879469853100,
  251971191811720238269600, 252061122497002182275000, 252141081950491371458500, 252150921006700128048500, 252261053182284126280500,
  252330858591269220749200, 252350878262298645354600, 252370739632862533365550, 252390451933092696274750, 252400961553210938865000,
  252420983867566070286000, 252500983867566070286000, 252520659999720853847900, 252530997220705332738300, 252590997220705332738300,
  252770914552848014291400, 252890575480239834805500, 252981012635773315464000, 252990902774544448653000, 253020869924137751449500,
  253070943321055259469600, 253080892238492882870400, 253181030867928994859500, 253201191811720238269600, 253211191811720238269600,
  253351191811720238269600, 253401191811720238269600, 253460878262298645354600, 253510997220705332738300, 253661053182284126280500,
  253800997220705332738300, 253861030867928994859500, 253910769860949720658900, 254231191811720238269600, 254290961553210938865000,
  254420558483757424300500, 254630731294701639460400, 254801030867928994859500, 254900670318144477371000, 254990878262298645354600,
  255050822923774826875800, 255060983867566070286000, 255090798629156965837000, 255110921006700128048500, 255120828053104265631000,
  255301081950491371458500, 255521191811720238269600, 255540943321055259469600, 255620654283879469853100, 255630558483757424300500,
  255690842160964091621400, 256010935316784492115800, 256191191811720238269600, 256220935316784492115800, 256280666062183035491400,
  256540983867566070286000, 256580851691982072054000, 256681122497002182275000, 256710935316784492115800, 257050449693967378730200,
  257231081950491371458500, 257460746376990612918800, 257641122497002182275000, 257651191811720238269600, 257710983867566070286000,
  257991191811720238269600, 258101030867928994859500, 258240997220705332738300, 258301191811720238269600, 258410935316784492115800,
  258441053182284126280500, 258761030867928994859500, 258840851691982072054000, 258851122497002182275000, 259030851691982072054000,
  259100769860949720658900, 259130908490385832647900, 259151122497002182275000, 259181191811720238269600, 259190717318507401944600,
  259250833459826392658500, 259421053182284126280500, 259681122497002182275000, 259700921006700128048500, 259720762765776123430400,
  259750997220705332738300, 259761122497002182275000, 259910485849957409131200, 260070830719928973847000, 260121053182284126280500,
  260291053182284126280500, 260310713899370927116600, 260320389982106386717500, 260391053182284126280500, 260410616554456355706200,
  260451053182284126280500, 260530771342458299172900, 260590943321055259469600, 260800608038675521675600, 260850650647115052765600,
  260891081950491371458500, 261020927905987276743700, 261181122497002182275000, 261220997220705332738300, 261240744078038790448900,
  261260648877157342825500, 261310723598597525847600, 261430680012338996594100, 261490728338821415305900, 261570771342458299172900,
  261740728338821415305900, 261780927905987276743700, 261850729314438909842400, 261870729314438909842400, 261941191811720238269600,
  262220578906699232215100, 262230686187139703438700, 262280611902454792216900, 262300802629690427206900, 262620961553210938865000,
  263290798629156965837000, 263330882707474902438000, 263481191811720238269600, 263541122497002182275000, 263551081950491371458500,
  263561122497002182275000, 263601012635773315464000, 263611191811720238269600, 263641030867928994859500, 263671053182284126280500,
  263710997220705332738300, 263760858591269220749200, 263770874006337203475000, 263791122497002182275000, 263881191811720238269600,
  263911122497002182275000, 263950927905987276743700, 263970599119117641228450, 264080830719928973847000, 264100997220705332738300,
  264120636128914068315800, 264171191811720238269600, 264211053182284126280500, 264260902774544448653000, 264320777498247599116250,
  264341191811720238269600, 264350997220705332738300, 264380822923774826875800, 264410746376990612918800, 264460902774544448653000,
  264481122497002182275000, 264600757431178052901200, 264631191811720238269600, 264651081950491371458500, 264690882707474902438000,
  264720855082137239622100, 264770983867566070286000, 264810503670589874016000, 264940828053104265631000, 264950789276551164754600,
  264971191811720238269600, 265171081950491371458500, 265190771342458299172900, 265221122497002182275000, 265240983867566070286000,
  265300902774544448653000, 265381191811720238269600, 265391053182284126280500, 265501053182284126280500, 265520997220705332738300,
  265750897367822321625600, 265790921006700128048500, 265881122497002182275000, 265921053182284126280500, 265971191811720238269600,
  266041122497002182275000, 266070690748190828644000, 266090692090492861858000, 266111030867928994859500, 266310878262298645354600,
  266410983867566070286000, 266570983867566070286000, 266840556374716158534500, 266900892238492882870400, 266971122497002182275000,
  267000983867566070286000, 267040892238492882870400, 267050811145471261237600, 267231081950491371458500, 267250882707474902438000,
  267260935316784492115800, 267510822923774826875800, 267570772846246035627000, 267811081950491371458500, 267900811145471261237600,
  267921053182284126280500, 267971012635773315464000, 268030983867566070286000, 268050636904111748747600, 268161053182284126280500,
  268250737482242011269100, 268621053182284126280500, 268650818044758409932600, 268741191811720238269600, 268930869924137751449500,
  269540855082137239622100, 269631053182284126280500, 269700887359476465927200, 269891191811720238269600, 269971191811720238269600,
  270291191811720238269600, 270351030867928994859500, 270540808947580589360100, 270851191811720238269600, 271221191811720238269600]

def emitB32_2 : List Nat := [
  271330961553210938865000, 271380830719928973847000, 271610878262298645354600, 271660902774544448653000, 271690887359476465927200,
  271780794782528883057400, 271851191811720238269600, 271930983867566070286000, 271940935316784492115800, 272110882707474902438000,
  272251191811720238269600, 272310902774544448653000, 272331053182284126280500, 272430794782528883057400, 272841081950491371458500,
  272981053182284126280500, 273201053182284126280500, 273311122497002182275000, 273871191811720238269600, 274020997220705332738300,
  274250972089262504647600, 274270813392756846443500, 274310612815703148544260, 274680927905987276743700, 274720612815703148544260,
  274901122497002182275000, 274910631599838150299500, 274920927905987276743700, 274930741830753205243000, 274940704291987918154400,
  274951012635773315464000, 275061122497002182275000, 275120961553210938865000, 275311122497002182275000, 275441122497002182275000,
  275780777498247599116250, 275800792913315581842150, 275990983867566070286000, 276021191811720238269600, 276030836276914089328100,
  276041030867928994859500, 276050997220705332738300, 276110798629156965837000, 276650659999720853847900, 276680902774544448653000,
  276790760062908884638500, 276820997220705332738300, 276830902774544448653000, 276871191811720238269600, 276880902774544448653000,
  276891053182284126280500, 276910997220705332738300, 276921053182284126280500, 276941122497002182275000, 276950704291987918154400,
  276960935316784492115800, 277000606591472260822150, 277040587311188834668400, 277140842160964091621400, 277190566044961450005700,
  277210399948854904045530, 277410927905987276743700, 277430648003789345950000, 277451122497002182275000, 277480815691708668913200,
  277730983867566070286000, 277790649758220311041000, 277840650647115052765600, 277920851691982072054000, 277940952022192958432500,
  278010629771633666554550, 278090952022192958432500, 278131191811720238269600, 278180815691708668913200, 278250828053104265631000,
  278270815691708668913200, 278321191811720238269600, 278330744078038790448900, 278350858591269220749200, 278520813392756846443500,
  278610578906699232215100, 278671012635773315464000, 278730802629690427206900, 278740557423676825636400, 278801012635773315464000,
  278861191811720238269600, 278880571154127565776800, 278931122497002182275000, 278961081950491371458500, 279001122497002182275000,
  279050887359476465927200, 279151191811720238269600, 279270705830479802102300, 279310721763683659027900, 279410757431178052901200,
  279460719961833108760100, 279630961553210938865000, 279660839175667776653400, 279690943321055259469600, 279740818044758409932600,
  279781191811720238269600, 279790667637018732305300, 279820914552848014291400, 279871191811720238269600, 279930705058275192711300,
  279961122497002182275000, 280061122497002182275000, 280090952022192958432500, 280100784057975847697600, 280140997220705332738300,
  280230429741211554443300, 280241030867928994859500, 280341012635773315464000, 280400820454513567838700, 280681191811720238269600,
  280700768401069778543600, 280721012635773315464000, 280820874006337203475000, 280920866002066436121300, 281031081950491371458500,
  281071081950491371458500, 281201122497002182275000, 281361191811720238269600, 281400961553210938865000, 281420704291987918154400,
  281450514275111144630400, 281470792913315581842150, 281510855082137239622100, 281650694830390280669500, 281831122497002182275000,
  281870943321055259469600, 281930815691708668913200, 281950761405210917852600, 282011122497002182275000, 282040667637018732305300,
  282071053182284126280500, 282460562654806282437600, 282480842160964091621400, 282710815691708668913200, 283040858591269220749200,
  283100848412999789754900, 283311122497002182275000, 283400921006700128048500, 283591053182284126280500, 283631191811720238269600,
  283641191811720238269600, 283690887359476465927200, 283780892238492882870400, 283850568763575480421400, 283880806796960067263700,
  283960815691708668913200, 284021122497002182275000, 284041081950491371458500, 284140892238492882870400, 284150568763575480421400,
  284181053182284126280500, 284310806796960067263700, 284500399948854904045530, 284661012635773315464000, 284670845238129958296900,
  284790818044758409932600, 284810804691619147480500, 284971122497002182275000, 285000887359476465927200, 285040902774544448653000,
  285070972089262504647600, 285080972089262504647600, 285100771342458299172900, 285160768401069778543600, 285480897367822321625600,
  285950798629156965837000, 286081012635773315464000, 286091191811720238269600, 286111191811720238269600, 286390914552848014291400,
  286551122497002182275000, 286700806796960067263700, 286961081950491371458500, 286991030867928994859500, 287011191811720238269600,
  287481191811720238269600, 287790869924137751449500, 287831191811720238269600, 287840927905987276743700, 287891081950491371458500,
  287990943321055259469600, 288090765543732534138000, 288140961553210938865000, 288221122497002182275000, 288430972089262504647600,
  288450997220705332738300, 288570897367822321625600, 288600997220705332738300, 288661030867928994859500, 288721030867928994859500,
  288790701284242394426600, 288950744078038790448900, 289001053182284126280500, 289031191811720238269600, 289090761405210917852600,
  289110961553210938865000, 289191081950491371458500, 289211122497002182275000, 289381053182284126280500, 289531030867928994859500,
  289610608038675521675600, 289661081950491371458500, 290010997220705332738300, 290061081950491371458500, 290170744078038790448900,
  290280757431178052901200, 290311122497002182275000, 290661191811720238269600, 290710935316784492115800, 290761122497002182275000,
  290810691417089643723600, 291050761405210917852600, 291130842160964091621400, 291281191811720238269600, 291291122497002182275000,
  291381191811720238269600, 291410572371181127802300, 291510952022192958432500, 291580943321055259469600, 292000765543732534138000,
  292111030867928994859500, 292330644584652871122100, 292450780724333820938400, 292541012635773315464000, 292550749927659458609800,
  292561191811720238269600, 292731012635773315464000, 292750952022192958432500, 292811053182284126280500, 292861191811720238269600,
  292890731294701639460400, 293010760062908884638500, 293050744078038790448900, 293090760062908884638500, 293130952022192958432500,
  293391191811720238269600, 293661081950491371458500, 293690594430759051343400, 293761081950491371458500, 293990935316784492115800,
  294200730299668554143600, 294820874006337203475000, 294920661979983583465900, 294940594430759051343400, 295440730299668554143600,
  295511191811720238269600, 295600961553210938865000, 295770655682503667327050, 295790997220705332738300, 295950782377264016059500,
  296091081950491371458500, 296110927905987276743700, 296150699086351722549100, 296270914552848014291400, 296320961553210938865000,
  296450792913315581842150, 296620813392756846443500, 296640615606581960251800, 296731191811720238269600, 296770733314972371212400,
  296991081950491371458500, 297020874006337203475000, 297050839175667776653400, 297560757431178052901200, 297900764145108336664000,
  297960735376901091485900, 298011191811720238269600, 298020782377264016059500, 298140735376901091485900, 298720699086351722549100,
  298980757431178052901200, 299160972089262504647600, 299260874006337203475000, 299430972089262504647600, 299760822923774826875800,
  299800997220705332738300, 299830833459826392658500, 299860927905987276743700, 299920848412999789754900, 299931191811720238269600,
  299961191811720238269600, 300020621100693763382000, 300030545197247814507600, 300050707393011592410400, 300110983867566070286000,
  300280622775774805863500, 300411191811720238269600, 300441122497002182275000, 300500997220705332738300, 300580972089262504647600,
  300590983867566070286000, 300600792913315581842150, 300640815691708668913200, 300660792913315581842150, 300951191811720238269600,
  301491030867928994859500, 301641081950491371458500, 301921191811720238269600, 302460839175667776653400, 302921081950491371458500,
  303151191811720238269600, 303221191811720238269600, 303281030867928994859500, 303310638472771365517600, 303320738551770922944000,
  303330607457278535133600, 303340571355943981400500, 303381191811720238269600, 303430741830753205243000, 303550862228033637836700,
  303580729314438909842400, 303821012635773315464000, 304080848412999789754900, 304100732299735224810500, 304140820454513567838700,
  304160833459826392658500, 304170983867566070286000, 304200997220705332738300, 304221030867928994859500, 304241191811720238269600,
  304270804691619147480500, 304350983867566070286000, 304361191811720238269600, 304390869924137751449500, 304520784057975847697600,
  304560961553210938865000, 304601122497002182275000, 304650869924137751449500, 304950774372993248705800, 305240717318507401944600,
  305260811145471261237600, 305610882707474902438000, 305710927905987276743700, 305960678821848745962200, 306931122497002182275000,
  306990961553210938865000, 307010892238492882870400, 307030961553210938865000, 307070699086351722549100, 307170677062272556924200,
  307221012635773315464000, 307400897367822321625600, 307420882707474902438000, 307791030867928994859500, 307890677062272556924200,
  308130927905987276743700, 308270820454513567838700, 308280897367822321625600, 308441081950491371458500, 308620961553210938865000,
  308711081950491371458500, 308720866002066436121300, 308871122497002182275000, 308970961553210938865000, 308990806796960067263700,
  309130830719928973847000, 309380882707474902438000, 309520830719928973847000, 309670706608693846307800, 309700800609419695455000,
  310251030867928994859500, 310361081950491371458500, 310381122497002182275000, 310480972089262504647600, 310670997220705332738300,
  310700578255231130095650, 310770897367822321625600, 311051191811720238269600, 311091030867928994859500, 311190552285560426724600,
  311461030867928994859500, 311501081950491371458500, 311631081950491371458500, 311660836276914089328100, 311790787506593454814600,
  311850742948083265055550, 312060822923774826875800, 312271081950491371458500, 312320855082137239622100, 312371122497002182275000,
  312461122497002182275000, 312830887359476465927200, 312910866002066436121300, 313020470877694577978600, 313190874006337203475000,
  313370887359476465927200, 313511081950491371458500, 313540820454513567838700, 313591012635773315464000, 313610789276551164754600,
  314061081950491371458500, 314350785767419183627600, 314611122497002182275000, 314710842160964091621400, 314810722676932015355200]

def emitB32_3 : List Nat := [
  315081191811720238269600, 315320414200172528395300, 315581191811720238269600, 315611122497002182275000, 315631191811720238269600,
  315690943321055259469600, 316161053182284126280500, 316490789276551164754600, 316650997220705332738300, 316801122497002182275000,
  316841191811720238269600, 316890943321055259469600, 317261122497002182275000, 317511081950491371458500, 317771053182284126280500,
  318111122497002182275000, 318590769860949720658900, 318810961553210938865000, 318901030867928994859500, 318960902774544448653000,
  319080869924137751449500, 319181122497002182275000, 319250869924137751449500, 319340722676932015355200, 319571122497002182275000,
  319580908490385832647900, 319671122497002182275000, 319751122497002182275000, 319950822923774826875800, 320040708980346508039450,
  320050510797475226755900, 320130539749607482400000, 320200887359476465927200, 320231122497002182275000, 320250952022192958432500,
  320330997220705332738300, 320340724528836792078900, 320391122497002182275000, 320430762765776123430400, 320480851691982072054000,
  320510961553210938865000, 320570811145471261237600, 320661191811720238269600, 320801053182284126280500, 321021012635773315464000,
  321131030867928994859500, 321140740725769586584500, 321211191811720238269600, 321291081950491371458500, 321431122497002182275000,
  321471081950491371458500, 321561030867928994859500, 321600756140837569310300, 321730536846646014888500, 321780836276914089328100,
  322021122497002182275000, 322180935316784492115800, 322221122497002182275000, 322271081950491371458500, 322321053182284126280500,
  322331012635773315464000, 322361030867928994859500, 322441191811720238269600, 322990836276914089328100, 323051191811720238269600,
  323170921006700128048500, 323211191811720238269600, 323530908490385832647900, 323611081950491371458500, 323991081950491371458500,
  324061191811720238269600, 324180510797475226755900, 324201191811720238269600, 324220708980346508039450, 324310887359476465927200,
  324331122497002182275000, 324350539749607482400000, 324371191811720238269600, 324400952022192958432500, 324420997220705332738300,
  324470935316784492115800, 324511191811720238269600, 324530961553210938865000, 324540851691982072054000, 324561191811720238269600,
  324610811145471261237600, 324631081950491371458500, 324651081950491371458500, 324671053182284126280500, 324731012635773315464000,
  324791030867928994859500, 324821191811720238269600, 324830908490385832647900, 324851122497002182275000, 324991081950491371458500,
  325000536846646014888500, 325081030867928994859500, 325110756140837569310300, 325171030867928994859500, 325261122497002182275000,
  325311012635773315464000, 325341053182284126280500, 325361081950491371458500, 325410836276914089328100, 325441081950491371458500,
  325681191811720238269600, 325930836276914089328100, 325990746376990612918800, 326171081950491371458500, 326220670318144477371000,
  326450746376990612918800, 326500869924137751449500, 326520730299668554143600, 326540468755404897340360, 326661053182284126280500,
  326710851691982072054000, 326761191811720238269600, 326770851691982072054000, 326810699813627655457100, 327240997220705332738300,
  327520621767362899200900, 327680862228033637836700, 327690825455555625304900, 327731053182284126280500, 327840656153092771068300,
  327890997220705332738300, 327930997220705332738300, 328191053182284126280500, 328220943321055259469600, 328420842160964091621400,
  328441122497002182275000, 328520602371436811784500, 328540698364326925200400, 328580804691619147480500, 328621053182284126280500,
  328790602371436811784500, 328821191811720238269600, 328871122497002182275000, 328931191811720238269600, 329031191811720238269600,
  329051012635773315464000, 329081012635773315464000, 329251191811720238269600, 329291053182284126280500, 329330921006700128048500,
  329430882707474902438000, 329461122497002182275000, 329580869924137751449500, 329630882707474902438000, 329660943321055259469600,
  329720972089262504647600, 329741053182284126280500, 329880921006700128048500, 329930787506593454814600, 330091191811720238269600,
  330140784057975847697600, 330180848412999789754900, 330210972089262504647600, 330301191811720238269600, 330411191811720238269600,
  330671053182284126280500, 330731053182284126280500, 330740952022192958432500, 331001053182284126280500, 331020869924137751449500,
  331040983867566070286000, 331070754866934991567450, 331090961553210938865000, 331261191811720238269600, 331361191811720238269600,
  331500961553210938865000, 331801053182284126280500, 331840784057975847697600, 331920997220705332738300, 332130943321055259469600,
  332560927905987276743700, 332580748730040353938200, 332670653821984884223600, 332680785767419183627600, 332880760062908884638500,
  332930874006337203475000, 332981122497002182275000, 333220952022192958432500, 333240972089262504647600, 333351122497002182275000,
  333911191811720238269600, 333940983867566070286000, 334020882707474902438000, 334061053182284126280500, 334101122497002182275000,
  334211030867928994859500, 334241122497002182275000, 334371081950491371458500, 334461122497002182275000, 334520836276914089328100,
  334570761405210917852600, 334590887359476465927200, 334761122497002182275000, 334870680612941402615200, 334950659510722324428760,
  335190851691982072054000, 335210427511356682197800, 335291030867928994859500, 335381191811720238269600, 335391191811720238269600,
  335401191811720238269600, 335410798629156965837000, 335621030867928994859500, 335760961553210938865000, 335900833459826392658500,
  336090851691982072054000, 336201191811720238269600, 336301122497002182275000, 336321012635773315464000, 336350808947580589360100,
  336361030867928994859500, 336470952022192958432500, 336550882707474902438000, 337070855082137239622100, 337130804691619147480500,
  337140836276914089328100, 337211191811720238269600, 337291081950491371458500, 337561122497002182275000, 337750369074169554866050,
  337770874006337203475000, 337780686826119513315900, 338020804691619147480500, 338041030867928994859500, 338161122497002182275000,
  338290952022192958432500, 338320818044758409932600, 338360461562077865536900, 338531122497002182275000, 338650943321055259469600,
  338831053182284126280500, 338890756140837569310300, 338911030867928994859500, 338990983867566070286000, 339111030867928994859500,
  339450536703686733929100, 339761053182284126280500, 339951030867928994859500, 340130820454513567838700, 340300836276914089328100,
  340811191811720238269600, 340921122497002182275000, 341261122497002182275000, 341371191811720238269600, 341800830719928973847000,
  341911191811720238269600, 342170818044758409932600, 342230874006337203475000, 342341012635773315464000, 342530820454513567838700,
  342550533470798022393100, 342690882707474902438000, 342761081950491371458500, 342770952022192958432500, 342991122497002182275000,
  343101122497002182275000, 343110680612941402615200, 343151030867928994859500, 343211012635773315464000, 343490697647477977339100,
  343820784057975847697600, 343841053182284126280500, 343940972089262504647600, 343950972089262504647600, 344760845238129958296900,
  345071191811720238269600, 345600825455555625304900, 345660845238129958296900, 345840921006700128048500, 345881081950491371458500,
  345931012635773315464000, 346780874006337203475000, 347350927905987276743700, 347390927905987276743700, 347461122497002182275000,
  347840961553210938865000, 348090961553210938865000, 348471012635773315464000, 348800902774544448653000, 348920804691619147480500,
  348931191811720238269600, 349030811145471261237600, 349070762765776123430400, 349090869924137751449500, 349170761405210917852600,
  349201081950491371458500, 349231012635773315464000, 349281191811720238269600, 350090935316784492115800, 350130935316784492115800,
  350290713062545960064900, 350360761405210917852600, 350370935316784492115800, 350410802629690427206900, 350881122497002182275000,
  351400858591269220749200, 351990521370284741858800, 352060997220705332738300, 352150927905987276743700, 352640869924137751449500,
  352660869924137751449500, 352680927905987276743700, 352820952022192958432500, 352990563211910787383100, 353020902774544448653000,
  353200902774544448653000, 353281053182284126280500, 353361053182284126280500, 353381191811720238269600, 353520935316784492115800,
  353770833459826392658500, 354130892238492882870400, 354301122497002182275000, 354331122497002182275000, 354420822923774826875800,
  354631122497002182275000, 354690775923411902302400, 354800972089262504647600, 354861191811720238269600, 354880952022192958432500,
  355190708183529543121700, 355271191811720238269600, 355420650647115052765600, 355661191811720238269600, 355820509048796787984300,
  356131081950491371458500, 356570943321055259469600, 356721081950491371458500, 356860997220705332738300, 356951191811720238269600,
  357030659999720853847900, 357120943321055259469600, 357220785767419183627600, 357451053182284126280500, 357480775923411902302400,
  357591191811720238269600, 357600935316784492115800, 357680833459826392658500, 357700650647115052765600, 357770943321055259469600,
  357800892238492882870400, 357821081950491371458500, 357931191811720238269600, 357971122497002182275000, 357991122497002182275000,
  358020952022192958432500, 358130822923774826875800, 358211191811720238269600, 358250972089262504647600, 358340509048796787984300,
  358350943321055259469600, 358430708183529543121700, 358481191811720238269600, 358741081950491371458500, 358950897367822321625600,
  359101122497002182275000, 359200593166519709825750, 359461053182284126280500, 359471030867928994859500, 359480874006337203475000,
  359970683052086715031150, 359980633086854398244600, 360080897367822321625600, 360151122497002182275000, 360200796687348380126800,
  360270952022192958432500, 360281030867928994859500, 360310921006700128048500, 360390935316784492115800, 360511122497002182275000,
  360670983867566070286000, 360740902774544448653000, 360920983867566070286000, 360930604599941290728000, 361061081950491371458500,
  361111053182284126280500, 361230878262298645354600, 361250683052086715031150, 361260633086854398244600, 361350897367822321625600,
  361360902774544448653000, 361410983867566070286000, 361421122497002182275000, 361481030867928994859500, 361490796687348380126800,
  361520921006700128048500, 361530952022192958432500, 361640935316784492115800, 361870604599941290728000, 361901081950491371458500,
  361941053182284126280500, 361950878262298645354600, 361960802629690427206900, 362030866002066436121300, 362150739632862533365550]

def emitB32_4 : List Nat := [
  362290754866934991567450, 362340708183529543121700, 362750882707474902438000, 363051030867928994859500, 363190961553210938865000,
  363350673633365209061000, 363391191811720238269600, 364201081950491371458500, 365540796687348380126800, 365551122497002182275000,
  365560855082137239622100, 365571191811720238269600, 365621191811720238269600, 365750874006337203475000, 366000866002066436121300,
  366171012635773315464000, 366280757431178052901200, 366290983867566070286000, 366370902774544448653000, 366501191811720238269600,
  366640943321055259469600, 366671030867928994859500, 366810935316784492115800, 367100796687348380126800, 367111122497002182275000,
  367120855082137239622100, 367131191811720238269600, 367160935316784492115800, 367181191811720238269600, 367190874006337203475000,
  367240866002066436121300, 367310983867566070286000, 367331012635773315464000, 367410757431178052901200, 367450902774544448653000,
  367521030867928994859500, 367550943321055259469600, 367630574850646989124000, 367741081950491371458500, 367840952022192958432500,
  367860576325910836627700, 367931191811720238269600, 367970785767419183627600, 367980761405210917852600, 368050921006700128048500,
  368070692090492861858000, 368080927905987276743700, 368160733314972371212400, 368170862228033637836700, 368240825455555625304900,
  368250858591269220749200, 368271012635773315464000, 368280943321055259469600, 368300800609419695455000, 368420680012338996594100,
  368551012635773315464000, 368611122497002182275000, 368641191811720238269600, 368651081950491371458500, 368671191811720238269600,
  368701122497002182275000, 368730855082137239622100, 368740952022192958432500, 368790908490385832647900, 368890858591269220749200,
  368900717318507401944600, 368950997220705332738300, 368990800609419695455000, 369130602371436811784500, 369141012635773315464000,
  369390733314972371212400, 369420692090492861858000, 369470539602440421254300, 369480761405210917852600, 369560952022192958432500,
  369600943321055259469600, 369740927905987276743700, 369810791078401715022500, 369840855082137239622100, 369880785767419183627600,
  369930927905987276743700, 369960825455555625304900, 370021191811720238269600, 370261081950491371458500, 370270800609419695455000,
  370301012635773315464000, 370381191811720238269600, 370510815691708668913200, 370571191811720238269600, 370731191811720238269600,
  370961191811720238269600, 371091191811720238269600, 371170836276914089328100, 371220774372993248705800, 371651191811720238269600,
  371680815691708668913200, 371970757431178052901200, 372020848412999789754900, 372100825455555625304900, 372140972089262504647600,
  372260874006337203475000, 372311122497002182275000, 372331191811720238269600, 372371191811720238269600, 372400792913315581842150,
  372511053182284126280500, 372550902774544448653000, 372571191811720238269600, 372590961553210938865000, 372911191811720238269600,
  372921191811720238269600, 373190822923774826875800, 373210983867566070286000, 373220983867566070286000, 373230983867566070286000,
  373240802629690427206900, 373250690083736556777100, 373260725467810827062800, 373290413739631626477700, 373410952022192958432500,
  373850774372993248705800, 374111053182284126280500, 374140779098281733760400, 374280972089262504647600, 374311081950491371458500,
  374400822923774826875800, 374671122497002182275000, 374841053182284126280500, 374920983867566070286000, 374960997220705332738300,
  374991012635773315464000, 375040657578295041788400, 375090908490385832647900, 375211053182284126280500, 375411191811720238269600,
  375690914552848014291400, 375731012635773315464000, 376100997220705332738300, 376160754866934991567450, 376240858591269220749200,
  376280848412999789754900, 376660887359476465927200, 376700787506593454814600, 376750703531527979632450, 377071122497002182275000,
  377091122497002182275000, 377501081950491371458500, 377620878262298645354600, 377820935316784492115800, 377941122497002182275000,
  378060851691982072054000, 378321191811720238269600, 378550997220705332738300, 379410802629690427206900, 379561030867928994859500,
  379690983867566070286000, 379950914552848014291400, 380021081950491371458500, 380131191811720238269600, 380240952022192958432500,
  380411053182284126280500, 380430779098281733760400, 380480774372993248705800, 380500848412999789754900, 380561122497002182275000,
  380650887359476465927200, 380681081950491371458500, 380751191811720238269600, 380761053182284126280500, 380780822923774826875800,
  380810802629690427206900, 380830972089262504647600, 380851122497002182275000, 381080908490385832647900, 381090914552848014291400,
  381151053182284126280500, 381241012635773315464000, 381280997220705332738300, 381291191811720238269600, 381300997220705332738300,
  381340657578295041788400, 381361030867928994859500, 381380997220705332738300, 381421191811720238269600, 381450935316784492115800,
  381460754866934991567450, 381491122497002182275000, 381561012635773315464000, 381770703531527979632450, 381820787506593454814600,
  381910858591269220749200, 381981081950491371458500, 382081122497002182275000, 382090878262298645354600, 382150851691982072054000,
  382621081950491371458500, 382630553630118497659750, 382710553630118497659750, 382720780724333820938400, 382750961553210938865000,
  382830545508774546202500, 382910943321055259469600, 383130866002066436121300, 383640842160964091621400, 383760780724333820938400,
  383780961553210938865000, 383880943321055259469600, 383931122497002182275000, 383951053182284126280500, 383970866002066436121300,
  384500716452701127633100, 384510882707474902438000, 384540772846246035627000, 384591053182284126280500, 384630572167307458817500,
  384700952022192958432500, 384710683052086715031150, 384721081950491371458500, 384771081950491371458500, 384801030867928994859500,
  384850943321055259469600, 384930943321055259469600, 384981122497002182275000, 385000730299668554143600, 385151081950491371458500,
  385180943321055259469600, 385200952022192958432500, 385250882707474902438000, 385340851691982072054000, 385420772846246035627000,
  385480780724333820938400, 385561122497002182275000, 385800683052086715031150, 385901030867928994859500, 385920851691982072054000,
  385931030867928994859500, 385961053182284126280500, 385970641278566645033300, 385980717318507401944600, 386040983867566070286000,
  386050866002066436121300, 386071122497002182275000, 386170584277117129401200, 386191122497002182275000, 386201191811720238269600,
  386220779098281733760400, 386261081950491371458500, 386271030867928994859500, 386340682436700157593300, 386420663491347364470700,
  386470983867566070286000, 386510707393011592410400, 386630792913315581842150, 386691191811720238269600, 386841030867928994859500,
  386861191811720238269600, 387060902774544448653000, 387131191811720238269600, 387281081950491371458500, 387380694138345996212100,
  387420961553210938865000, 387450869924137751449500, 387480869924137751449500, 387500813392756846443500, 387540887359476465927200,
  387610678821848745962200, 387720972089262504647600, 387741191811720238269600, 387950997220705332738300, 387971081950491371458500,
  388591191811720238269600, 388670718191875398820000, 388761191811720238269600, 388861191811720238269600, 388890718191875398820000,
  388921191811720238269600, 388931122497002182275000, 388990961553210938865000, 389020935316784492115800, 389140972089262504647600,
  389180760062908884638500, 389280935316784492115800, 389290902774544448653000, 389480935316784492115800, 389570761405210917852600,
  389711122497002182275000, 389820802629690427206900, 390230728338821415305900, 390300972089262504647600, 390340760062908884638500,
  390370902774544448653000, 390440935316784492115800, 390530804691619147480500, 390560935316784492115800, 390571122497002182275000,
  390630802629690427206900, 390800943321055259469600, 391180943321055259469600, 391310596227983291786500, 391340596227983291786500,
  391351053182284126280500, 391511122497002182275000, 391640897367822321625600, 391661030867928994859500, 391731081950491371458500,
  391780997220705332738300, 392771122497002182275000, 392801030867928994859500, 392820897367822321625600, 392921081950491371458500,
  393180760062908884638500, 393210713899370927116600, 393400635359679506000200, 393470972089262504647600, 393810726415685222517200,
  394091012635773315464000, 394720961553210938865000, 395111122497002182275000, 395320635359679506000200, 395360972089262504647600,
  395500726415685222517200, 395581012635773315464000, 395641122497002182275000, 395920791078401715022500, 396361030867928994859500,
  396400570350910396050400, 397170830719928973847000, 397191122497002182275000, 397291191811720238269600, 397641191811720238269600,
  397700952022192958432500, 397910731294701639460400, 397991053182284126280500, 398540943321055259469600, 398810785767419183627600,
  398821191811720238269600, 400600952022192958432500, 400631053182284126280500, 400650731294701639460400, 400920943321055259469600,
  401000785767419183627600, 401041191811720238269600, 401650897367822321625600, 401790762765776123430400, 402010605733097891683000,
  402320927905987276743700, 402510878262298645354600, 402551081950491371458500, 402850914552848014291400, 403000952022192958432500,
  403720997220705332738300, 404410825455555625304900, 404790897367822321625600, 404810779098281733760400, 404860605733097891683000,
  404930927905987276743700, 405091081950491371458500, 405110878262298645354600, 405170914552848014291400, 405270952022192958432500,
  405480997220705332738300, 405600825455555625304900, 405651012635773315464000, 405720961553210938865000, 405730833459826392658500,
  405990961553210938865000, 406070997220705332738300, 406130648877157342825500, 406140648877157342825500, 406351081950491371458500,
  406430675333122845918150, 406440675333122845918150, 406540785767419183627600, 406570738551770922944000, 406641012635773315464000,
  406700897367822321625600, 406800650647115052765600, 407181191811720238269600, 407230943321055259469600, 407631012635773315464000,
  407780651995450086494300, 407840651995450086494300, 407860869924137751449500, 408310869924137751449500, 408450614356565683828750,
  408481191811720238269600, 408570614356565683828750, 408600769860949720658900, 408630769860949720658900]

def emitB33_0 : List Nat := [
  199690440465332484668100, 200500563460161557587700, 210470663313044568700400, 210500678728112551426200, 210850788589341418237200,
  210930788589341418237200, 211280494145443501593200, 214850719274623362242700, 214860388769271251317400, 215010398392074460772800,
  215200627645550174827200, 215430489016114062838100, 215490502369253325290400, 215530459005654817804300, 215900696960268230821700,
  216170450150315083659800, 216280386054172344722300, 216520391560150063025030, 216530262839804215459070, 216580346705280638577440,
  216670489016114062838100, 216740678728112551426200, 216790311098045360718600, 216840857904059474231700, 216950481784047904875600,
  217030340289086216848840, 217040212227093917015440, 217120502369253325290400, 217190334259863191236840, 217350719274623362242700,
  217560663313044568700400, 217990427497550153814700, 218250563460161557587700, 218630479485096082405600, 218660475039919825322250,
  218880479485096082405600, 218910285872881813490580, 219390548799814138400150, 219740466701758931417100, 219850315409057726091470,
  220070470783958383442700, 220160587099039364010800, 220170494145443501593200, 220300379991710163078840, 220380479485096082405600,
  220470453598932690776700, 220570334259863191236840, 220640398392074460772800, 220790306561184857733560, 221030386951039342998330,
  221400403574581247231400, 221820696960268230821700, 244030532094405672083600, 245730540098676439437200, 246140368120079479140600,
  251690281698921196214070, 257780281698921196214070, 268050649959905306248100, 277530464721496201799140, 278010649959905306248100,
  279000719274623362242700, 281010649959905306248100, 281210524683608456711300, 284040427497550153814700, 284970719274623362242700,
  285380696960268230821700, 300700532094405672083600, 367030352279478939400950, 367200352279478939400950, 378470696960268230821700,
  381430696960268230821700, 384630857904059474231700, 385340333201652258183150, 391000553451815701889400, 391250553451815701889400,
  395920857904059474231700]

def emitB34_0 : List Nat := [
  200260231578985799457550, 200560700607229734950200, 201970725866304999001200, 203810541465289041808000, 205110580836910603716100,
  208510263526912504546960, 209140595625017285082400, 209730478822843281054700, 214500652607413737877100, 215210591044063681953000,
  222401011513325621049700, 225220437534034403126200, 235450213032986647608970, 235650213032986647608970, 244030559117312564794760,
  249770478822843281054700, 253530274654123580744040, 263970574063488795740600, 264120649346255179000900, 266810212550501256454700,
  275990555915331441317700, 276040743411172749620500, 278390476422343954328900, 288580231578985799457550, 300700559117312564794760,
  321470257738361167368200, 322270711940098265650500, 324630257738361167368200, 325360711940098265650500, 332580414285152851928800,
  332670382023632655950100, 349090595625017285082400, 362250557824191097569900, 366110653718536280384100, 367390653718536280384100,
  367930964512962696476000, 368300545547488493833500, 368900171564310365047130, 368990545547488493833500, 370020964512962696476000,
  373410380776367770699300, 374920494692457500948000, 379690494692457500948000, 380240380776367770699300, 383640263526912504546960,
  385000328059403955961800, 385430241330007808997300, 385680241330007808997300, 387520598799887116540500, 389180509125273536421900,
  390340509125273536421900]

def emitB35_0 : List Nat := [
  199680854905170512945700, 199750668829936441445100, 199790766174851012855500, 199950778691165308256000, 199970980181467362482600,
  200100433164705015013000, 201540556048792105407900, 202390611293521951088900, 202500482853516607233900, 202621049496185418477100,
  204910433164705015013000, 205231049496185418477100, 208030980181467362482600, 208060536506313926169700, 208080709376447252261600,
  208090683140020805512500, 208110499370364364004350, 208440220241334020901030, 208480819237676119072600, 209980432744536329642900,
  210151049496185418477100, 210510888552394175067100, 211520561215993159840000, 213150337532621616713470, 213260870320238495671600,
  213450648762866895230000, 213460829773727684855100, 214000421269510728876500, 214740778691165308256000, 214770577646298288967600,
  214880980181467362482600, 215440888552394175067100, 216080569094080945151400, 216970870320238495671600, 220470793001249672323400,
  221360888552394175067100, 222420870320238495671600, 222700939634956551666200, 222800709376447252261600, 222940939634956551666200,
  222960870320238495671600, 223300778691165308256000, 223500793001249672323400, 223590745043941646134700, 223621049496185418477100,
  225331049496185418477100, 225800778691165308256000, 226020745043941646134700, 227680685737569445838500, 227880980181467362482600,
  228230673376173849120800, 228250338100574461873600, 228400980181467362482600, 234330735946763825562100, 234780541978803895094400,
  235720691144291572866100, 236180479786836767936600, 236210615115643233108700, 236520479786836767936600, 240660870320238495671600,
  241790160579139882135860, 241800491901275103845500, 242111049496185418477100, 242351049496185418477100, 243200650597780762049600,
  244940581283062706055100, 251420785590452456951200, 251430785590452456951200, 256680793001249672323400, 258850793001249672323400,
  260850755052287501833100, 262220652466994063264900, 263710482853516607233900, 264210709376447252261600, 264790980181467362482600,
  265500819237676119072600, 266790888552394175067100, 271710888552394175067100, 274250719912498818044200, 274311049496185418477100,
  274721049496185418477100, 274930543871604883646300, 275730980181467362482600, 276110566664811688246900, 276270278969937931844570,
  278610583152276007270400, 279690939634956551666200, 280230484951495654153300, 285950660314155607414400, 288570740391940082645500,
  289660611293521951088900, 292460691144291572866100, 292550980181467362482600, 292750527460602910644650, 297901049496185418477100,
  299260735946763825562100, 304140369367881971315050, 304390829773727684855100, 307010723686531616328900, 311810301509772301974440,
  312780301509772301974440, 314350359523874689989800, 317510693961379269535700, 319950310478042595834100, 320680719912498818044200,
  321140980181467362482600, 324520719912498818044200, 326540153321105485427280, 328820685737569445838500, 329290538901638028419100,
  333221049496185418477100, 333681049496185418477100, 335210410640044863914100, 337750870320238495671600, 338360668829936441445100,
  339700760459009628860600, 343490819237676119072600, 343890980181467362482600, 350410683140020805512500, 352820939634956551666200,
  354630980181467362482600, 362030606414505534145750, 366490680608240007083400, 367440680608240007083400, 368070793001249672323400,
  369130569094080945151400, 369420793001249672323400, 373240683140020805512500, 373250888552394175067100, 382830650597780762049600,
  384530484247267391612000, 384990484247267391612000, 393400471421833839244100, 395320471421833839244100, 406700740391940082645500]

def emitB36_0 : List Nat := [
  208060000000000000000000]

def emitB38_0 : List Nat := [
  199680445938794060590700, 199770774650462331021500, 200040637140023348386800, 200100902329277139257300, 200260457552322147411500,
  200430400284759588158200, 201080688950409241544100, 201341052206511593915500, 201600296665825361707400, 201820269431170029454000,
  202190452230176601647700, 203090538851008981297000, 203130942345282727104400, 203200399710528318387450, 204740762905134858015100,
  204910902329277139257300, 208410637140023348386800, 208540277650588098913080, 209600797560057315172000, 210290455775155789712300,
  210350455775155789712300, 210690603610755841704000, 215080297255620643661840, 215160827328272893808500, 215180568540535143547600,
  215660985301548695826800, 216430878746406055104700, 216810471335078891668100, 217380453537384758383000, 218610923585421337624600,
  223120862494513105327300, 228100457253925805150200, 228230431875873727540200, 229050531596747148788500, 229140361188420974217860,
  234270442185293878438800, 235721356658755366257700, 240491047554510030426100, 241900797560057315172000, 244440631950696907682000,
  244600568540535143547600, 245900350797836425914870, 247440898162007499200500, 251050263125092861802170, 259491246797526499446600,
  260490820061153864072500, 261591148714601198274100, 263770347927956820875830, 264120362397544644239880, 265760458817923903368300,
  274920381345788271501100, 275990354092661716877280, 279220955925436843010500, 287530955925436843010500, 288580457552322147411500,
  292391148714601198274100, 292421148714601198274100, 292461356658755366257700, 299780687326388539262800, 322270922278213180889300,
  325360922278213180889300, 327690843668883873950300, 332580280251227212854470, 335090875440319829016000, 343821177482808443452100,
  354420469438079763427300, 355040753830903343187850, 355760682725092630540300, 358130469438079763427300, 358320682725092630540300,
  358410753830903343187850, 360201195714964122847600, 361491195714964122847600, 362750863211362053188600, 368250154603156382289870,
  368890154603156382289870, 370270257980441657023270, 371450963476192093825100, 391920942345282727104400]

def emitB40_0 : List Nat := [
  208540011261887810814913, 247440223952695702690900]

def emitB41_0 : List Nat := [
  368250000000000000000000, 368890000000000000000000]

def emitB42_0 : List Nat := [
  199680307939276022544340, 199770959039487170143800, 199780610695939180230950, 199810664972237533047400, 199900565020098930659500,
  199921222945220131669500, 199951084315784019680600, 199960322909239412844200, 200130789871886103036500, 200610854057274720276000,
  200650617266818808807100, 200700724584557960836000, 201130983155692851832600, 201170720557168047041950, 201820886215637133022200,
  202501015001065963686000, 202600918492976359327300, 203020661268110365012400, 203070475865842712163400, 206630918492976359327300,
  208260632136926314776500, 208280767557530971615500, 208390418194269033527400, 208431043769273208864000, 208451153630502075675100,
  208510684038047150019500, 208690418194269033527400, 208910555236874006956100, 209120772964253098643100, 209610882825481965454100,
  209980959039487170143800, 210690494737854322323100, 212710543262848304184050, 212950867410413982728200, 213060669606271258917600,
  213120669606271258917600, 213220628928094859626400, 213350623300011269767500, 213671043769273208864000, 214070918492976359327300,
  214741084315784019680600, 214750525310413086894700, 214880531770490106502200, 214910696676201241181000, 215181028354205226138300,
  220680486048179912190300, 222180758506130217532350, 222530640345209393624600, 222690252197953270652500, 222830252197953270652500,
  222900640345209393624600, 223200331321446959521700, 223300530189429503837900, 223650798095695926733700, 223691222945220131669500,
  224780406893395383919100, 224950923371992776270500, 225640777510490506318900, 225800530189429503837900, 226160952140200021448600,
  226220694624847257870750, 226590358421766001957430, 226810544726014530990450, 227210678703449079490300, 227610798095695926733700,
  228060604530331037921300, 228230800994449614058900, 228250522185158736484300, 228260653909274699263600, 228360468406245170487300,
  234311028354205226138300, 234540909395798538754700, 234600536669428826529500, 234670520391388667817500, 234700520391388667817500,
  234780365154027486575260, 235260909395798538754700, 235450665729816913893100, 235460705896820627854500, 235650665729816913893100,
  236221153630502075675100, 236261153630502075675100, 236270457975957760518200, 236650409821565162058000, 237030905139837096875000,
  237070570295734174590600, 237250822211901608422500, 237360560538697351680250, 237980570295734174590600, 238301003222762398047700,
  238310905139837096875000, 239940822211901608422500, 240380684955484777623600, 240550750206438260435500, 240660408535373797817200,
  241490681335179911227600, 244030400663007050303600, 244601028354205226138300, 245150259208094331778850, 245760537088716652533100,
  246351113083991264858600, 250790537088716652533100, 251420692614729325762000, 251430692614729325762000, 251510525497329029165100,
  251630332563698959377400, 252960873294463985021500, 256740913840974795838000, 258920913840974795838000, 259320695133754208617900,
  259490966450284385515900, 259730695133754208617900, 259910710548822191343700, 262630952140200021448600, 263600724584557960836000,
  263680905139837096875000, 263711015001065963686000, 264260672006386468871850, 264490678271482965038600, 264790842278971154637500,
  264810322909239412844200, 265170746727826651894000, 265190626074464133133000, 265500727362514371543500, 265881043769273208864000,
  266410573721236629622500, 266570805506493142106000, 267000495289579859798600, 267250674051447516000900, 268420851588013461238800,
  270040516897583531689500, 271550516897583531689500, 271930573721236629622500, 272110674051447516000900, 272310672006386468871850,
  273311043769273208864000, 274920512777622969725200, 275830740917063571165900, 277000437740199405080600, 277190867410413982728200,
  277430589795035142300500, 277440959039487170143800, 278070746727826651894000, 278270558436123181105200, 278390829762656859237000,
  279150766510400984886000, 280230344974091111222720, 281450503727014260345000, 282460570883107375800000, 283170746727826651894000,
  283301028354205226138300, 288091043769273208864000, 288210792538710811252600, 291510788564677946301200, 292001043769273208864000,
  292540544726014530990450, 292550771859269479984600, 294250641234104135349200, 295080641234104135349200, 296160439426844604994800,
  296770740917063571165900, 296940439426844604994800, 300000745032870820516600, 300111153630502075675100, 300280867410413982728200,
  300591153630502075675100, 300700400663007050303600, 304240484982004870714340, 304360484982004870714340, 304650728069231093852750,
  304730859186604159031000, 305240472121342663803300, 307400945686347907691500, 313540461464683660562300, 313830479696839339957700,
  314490612242931357444100, 316650928501322215025500, 317260945686347907691500, 318110945686347907691500, 319950864593326286058600,
  321780367034960682324900, 322180788564677946301200, 323171113083991264858600, 324470788564677946301200, 325920842278971154637500,
  325930367034960682324900, 328190610258301720251100, 329370628403159271012100, 329720952140200021448600, 329931222945220131669500,
  330160573267721113083350, 330800398774904158687750, 330990783500304664425700, 331090842278971154637500, 331450687286592664468400,
  332250398774904158687750, 332930854057274720276000, 333290709365376426643400, 333350966450284385515900, 333370514438790736414800,
  333690709365376426643400, 338290788564677946301200, 342550723901961453796000, 349030478053609877249600, 349550833763190320607000,
  351990295098600029291270, 352821028354205226138300, 362290818640093348214600, 363350426808199959718500, 365230304658580634126830,
  365540558957636749016000, 365570555236874006956100, 366671062001428888259500, 366760923371992776270500, 367100558957636749016000,
  367521062001428888259500, 367580923371992776270500, 367930484360112319148700, 367970873294463985021500, 368170547251981206914300,
  368280520302539261706000, 368840582422374328585400, 369470691624622227490900, 369600520302539261706000, 369880873294463985021500,
  370020484360112319148700, 370660575556150496442150, 371290617266818808807100, 373260675718152764522100, 382631062001428888259500,
  382711062001428888259500, 382720352329291038783540, 383640684038047150019500, 383760352329291038783540, 384311062001428888259500,
  384520769685270816344000, 384530674881327797470500, 384700629720701386868500, 384760959039487170143800, 384980687759406784062900,
  384990674881327797470500, 385120769685270816344000, 385200629720701386868500, 385381062001428888259500, 385480642130971133625200,
  386340992686710832265000, 386420983155692851832600, 386460777510490506318900, 387540541271632072172700, 389570468406245170487300,
  389680873294463985021500, 390250786000434884967450, 390450786000434884967450, 390480873294463985021500, 396360475865842712163400,
  396400596225165277533350, 406800632136926314776500, 407630897135566329521300]

def emitB43_0 : List Nat := [
  199680457009673131776800, 199691156814964828068400, 199710638076384243993000, 199750655086981146576100, 199770603278582524944700,
  199780347728775765399700, 199790412404720830247900, 199810672790734011311000, 199851185583172073246600, 199900620100609080279600,
  199960517038700676064700, 200040869176413235926000, 200050886009944717847600, 200130435991947504801500, 200370955324662773842100,
  200610611496757117173300, 200940711963327233797000, 201070640622490663820350, 201080625125589615971300, 201160535354154985849300,
  201320924087194269626800, 201331185583172073246600, 201350914778151963025500, 201700231419917217661240, 201740636827235454590000,
  201970572098859077913700, 202100902261837667624900, 202390929088236327093000, 202410995871173584658500, 202500581399096629941700,
  202561295444400940057500, 203071226129682884063000, 203391055654873660220400, 203580610643873482421300, 203670807924668619942400,
  204151075721943206435700, 205510702751798343016400, 206210679746502381502000, 206591295444400940057500, 207990867777789038452000,
  208030444306770330590250, 208080587694595583134400, 208091226129682884063000, 208180867777789038452000, 208201295444400940057500,
  208410869176413235926000, 208430603476015955316500, 208440468391891434550440, 208450661232259067942400, 208540670061519782510300,
  209080494774316396020800, 209120707391102299987600, 209190937092507094446600, 209400667968198815863600, 210180477889641337954900,
  210210555688247387652300, 210490702485486601068100, 210690521247610957989100, 210700702485486601068100, 210830477889641337954900,
  211631018185528716079300, 211711038949465193903900, 212131295444400940057500, 212141038949465193903900, 212710496998127713837900,
  213130511688964851949100, 213200574658413796810000, 213220672988558012521600, 213350501564176124609500, 213551226129682884063000,
  213591116268454017252000, 213630731965440623132600, 214350424053338090665100, 214520934352609675635100, 214570887690656549485600,
  214760439457454370390200, 215160815042296466732000, 215180383545167688369840, 215211018185528716079300, 216080399359116407820470,
  216291185583172073246600, 216440910429640769051800, 216721295444400940057500, 217760499307380768106500, 218300637519279739047500,
  219870857241737472669400, 220250648519369260480300, 221960886009944717847600, 222350649453955502304050, 222421185583172073246600,
  222690610643873482421300, 222780942808348478441400, 222830610643873482421300, 222910942808348478441400, 222961185583172073246600,
  223031185583172073246600, 223070705454665581808450, 223201226129682884063000, 225220906262371128994800, 227660912580261291148000,
  227670912580261291148000, 227881087500246772073900, 227970931685784967419000, 227990438998562551722400, 228120481500348752596700,
  228201006407225150441100, 228230721144082159109350, 228250716754662803386800, 228360881130928300904300, 229140392898847662151240,
  229220787927019416674850, 231300742899107026879200, 233760898415209584845400, 233810784245622104403200, 233911226129682884063000,
  233951295444400940057500, 233981226129682884063000, 234130904242100397242900, 234161226129682884063000, 234330939909594791116200,
  234350537578715880581300, 234541116268454017252000, 234590741318046424214900, 234721031538667978531600, 234931038949465193903900,
  235060848853589074599100, 235261116268454017252000, 235530929088236327093000, 235580546335641586570000, 235590546335641586570000,
  235670807924668619942400, 236810748217333572910100, 238151001000503023413500, 240500955324662773842100, 240511185583172073246600,
  240721226129682884063000, 241071226129682884063000, 241781087500246772073900, 241790490246593049827700, 241800372390893013887370,
  241851087500246772073900, 241880709365778593471000, 241911087500246772073900, 242471185583172073246600, 242911087500246772073900,
  243140803446308357245000, 243200942808348478441400, 243440828161517493867000, 244030272554516760265960, 244440795049770345511700,
  244480528728575408142800, 244600383545167688369840, 244780636827235454590000, 245241001000503023413500, 245350891139274156602600,
  245760958714817941410200, 246740939909594791116200, 247730945793644793409500, 247780986340155604225900, 248581116268454017252000,
  248591226129682884063000, 248630841114922713057200, 249301065185891640653000, 250790958714817941410200, 250981295444400940057500,
  251001185583172073246600, 251040809463160503890400, 251120578048568964378200, 251360578048568964378200, 252771185583172073246600,
  252820866398456825218400, 253450977639017905263000, 254900973556818453237400, 255061226129682884063000, 259101185583172073246600,
  259451038949465193903900, 259681012123066534436000, 259761012123066534436000, 259911116268454017252000, 259950986340155604225900,
  260320743699111293586800, 260410701427275668014400, 260800714031347757550900, 260820910429640769051800, 260850486588220412434200,
  260860874975139000961000, 260870669486254533565300, 260890424004064869663300, 260971031538667978531600, 261020794380871530431950,
  261260316088293624305200, 261320680597571348292900, 261430628621576098317200, 261490526233066980510900, 261520347232231450428900,
  261590718300288627055900, 261720986340155604225900, 261780794380871530431950, 261850831971502117094000, 261870831971502117094000,
  261880780115241490279700, 262020429940375129221300, 262050986340155604225900, 262141185583172073246600, 262160912580261291148000,
  262570815042296466732000, 262860886009944717847600, 263561295444400940057500, 263680476909378622188900, 263710581399096629941700,
  263760507250652012850600, 263811295444400940057500, 263880869176413235926000, 263951295444400940057500, 263990706556605106769450,
  264100361018481985860570, 264110786684767416819100, 264120444186143054202100, 264150786069380859381400, 264351295444400940057500,
  264690610643873482421300, 264810517038700676064700, 265430834927382341248500, 268931295444400940057500, 274021295444400940057500,
  274250508313280607716900, 274910638777157959733400, 274920421891882366735100, 275060748217333572910100, 275311065185891640653000,
  275441065185891640653000, 275750958714817941410200, 275971065185891640653000, 276650892909231866542700, 277040826309612717143200,
  277210557856186118556300, 277390753834360719615500, 278770839009581793273900, 279000969634747137909300, 279460746550628324388900,
  279631046953735961257500, 281291087500246772073900, 281450667030984832977400, 281650460024044647880100, 283850937092507094446600,
  284150937092507094446600, 284311156814964828068400, 284500557856186118556300, 284970969634747137909300, 285070850009671314706800,
  285080850009671314706800, 287791038949465193903900, 287830919324389370701300, 289610714031347757550900, 291280919324389370701300,
  291511134500609696647500, 292331226129682884063000, 292381116268454017252000, 292750857241737472669400, 293991295444400940057500,
  294670876478926737415000, 294821226129682884063000, 294921185583172073246600, 295791295444400940057500, 296151046953735961257500,
  296160267224608606510250, 296771100853386034526200, 296940267224608606510250, 298721046953735961257500, 299830660705479974456500,
  299860914778151963025500, 300021185583172073246600, 300031134500609696647500, 300051226129682884063000, 300681156814964828068400,
  300700272554516760265960, 300871156814964828068400, 303320887690656549485600, 303330596787754999414850, 304241295444400940057500,
  304270807164208681420400, 304361295444400940057500, 304460283661149990658720, 305240460377776887965150, 306360621274331474852100,
  307070841114922713057200, 307721038949465193903900, 310360929088236327093000, 311500929088236327093000, 311790580531241084316900,
  312060633971840919681500, 312370876478926737415000, 312460876478926737415000, 314350795723173563646000, 314610723413223279316400,
  314710769175382049569000, 315320618365458549159600, 316800541701397281406650, 320321226129682884063000, 320850990992157167715200,
  323801156814964828068400, 324770990992157167715200, 324871156814964828068400, 326501295444400940057500, 327160664634556789104500,
  327690700640902021992900, 327711055654873660220400, 327800750340555583487500, 328540705454665581808450, 329051156814964828068400,
  329881295444400940057500, 330980760258587592450900, 332400760258587592450900, 332900669486254533565300, 333101156814964828068400,
  333911295444400940057500, 334100541701397281406650, 334261006407225150441100, 334570872033750480331600, 338291134500609696647500,
  338360655086981146576100, 343820851179275291025800, 343891087500246772073900, 348920874975139000961000, 348990786069380859381400,
  349071226129682884063000, 351990500218070074353000, 352111185583172073246600, 352651185583172073246600, 352990744911247346821300,
  354771226129682884063000, 355060867777789038452000, 355661295444400940057500, 358061226129682884063000, 358380867777789038452000,
  358950945793644793409500, 359481226129682884063000, 360930878005673950494000, 361870878005673950494000, 362141226129682884063000,
  362151185583172073246600, 362451226129682884063000, 366810771269699434093300, 367160771269699434093300, 367841185583172073246600,
  367970841114922713057200, 368070361852881451632640, 368170359723656161484050, 368251156814964828068400, 368280764123803035878800,
  368311100853386034526200, 368891156814964828068400, 369130399359116407820470, 369261185583172073246600, 369420361852881451632640,
  369470867777789038452000, 369600764123803035878800, 369781100853386034526200, 369880841114922713057200, 370270679746502381502000,
  371931185583172073246600, 372020767632935017005800, 372131100853386034526200, 372391226129682884063000, 372761185583172073246600,
  372781100853386034526200, 373250733767291173400400, 373290804178912366452400, 382830942808348478441400, 382871055654873660220400,
  382900937092507094446600, 383841055654873660220400, 383860937092507094446600, 384521134500609696647500, 385000821824556100608000,
  385121134500609696647500, 385340645165396348495200, 385390619634950497284450, 386051087500246772073900, 386170934352609675635100,
  386221226129682884063000, 386320752509838044613500, 386340921677439111720700, 386461087500246772073900, 386511226129682884063000,
  386630835932415926598600, 386701024639380829836600, 386840981894979347142500, 387380784245622104403200, 389150775594697813475000,
  389180664999520697859400, 389200770217058135394600, 389281226129682884063000, 389570881130928300904300, 390310775594697813475000,
  390340664999520697859400, 390350770217058135394600, 390441226129682884063000, 391510760258587592450900, 392770760258587592450900]

def emitB43_1 : List Nat := [
  393180501528519144377900, 393401065185891640653000, 395140986340155604225900, 395321065185891640653000, 396361226129682884063000,
  397401185583172073246600, 397591295444400940057500, 404811226129682884063000, 406131156814964828068400, 406141156814964828068400,
  406430623301830860993200, 406440623301830860993200, 406540689065880071296700, 407361018185528716079300, 407790986340155604225900,
  408451226129682884063000, 408571226129682884063000]

def emitB45_0 : List Nat := [
  199680118058314491214780, 199820497908060023081900, 200260376163430366035150, 201131073798237410810000, 202840244493323433965600,
  203580132315133931691720, 210170834008710130972900, 210630834008710130972900, 223120308591162799161800, 243201073798237410810000,
  246410673064918887562950, 264690132315133931691720, 264970465576346373165400, 269970465576346373165400, 288580376163430366035150,
  303400267902235633868300, 306910894622290488004500, 315610261561113070154730, 327800259825009439043000, 332870497908060023081900,
  333240331083824069948470, 362150809892504449284100, 382831073798237410810000, 386421073798237410810000]

def emitB52_0 : List Nat := [
  199680787640402621408500, 199691359288333166469300, 199751343873265183743500, 199761096580219309615000, 199771089600643116060800,
  199780432859153459603700, 199790454275083623735400, 199810384790315782326480, 199820953820402583502300, 199851274558547127749000,
  199870794097911777715700, 199901129029823867064800, 199951012714742886496600, 199960917605277479612000, 199990852502789723854600,
  200020852502789723854600, 200041132419979034632900, 200050816793331418329000, 200060664686934056546500, 200070819321347085636900,
  200101038743052712863200, 200130707496590490502100, 200160961320167776273100, 200180941593524090738200, 200200721163148916777600,
  200260579299341068616000, 200270693658534831137300, 200300633941294898016600, 200350872534888120911100, 200370917003470247055600,
  200411116513509571664100, 200441308205770789870200, 200471359288333166469300, 200480925995940999854400, 200521274558547127749000,
  200560841861861378663400, 200601229360034753443300, 200621001400477276508600, 200640971131953372125500, 200700946306438124893200,
  200800646907625518210200, 200810878069897629227500, 200831073068245073522500, 200980878069897629227500, 201020645005593050307300,
  201040807275663681558300, 201050703800071067154900, 201070931621721264863800, 201081110797668187669300, 201110927317546139007000,
  201130945771677492233700, 201140788411331549745300, 201171005676663210316800, 201271040790905847217300, 201290899272568750014600,
  201301087378329437589700, 201320587813148906887850, 201340933963748685673600, 201350575592109554185400, 201361281969344343121000,
  201371298674752809437800, 201390718572835590575900, 201420896791051838042100, 201460823237394486020900, 201491137730961566027700,
  201541029089260008598600, 201650850941071361617100, 201661377520488845864800, 201671073068245073522500, 201710650127988397598900,
  201740677250313216755700, 201791105390946060641600, 201821469149562033280400, 201831261205407865296700, 201840778774836274820450,
  201851274558547127749000, 201950724228852404291400, 201970674505500126290400, 202080902853514019685700, 202100925559259083220300,
  202190723043010597851900, 202230868637474677733600, 202250811293909400538000, 202341057245844552033100, 202390959468262999549500,
  202401112196292385143300, 202410721078534611912600, 202480723100531450746500, 202491106715468735643700, 202500746020861600518700,
  202511399834843977285800, 202541208880593488842000, 202560616782346281885600, 202600816573309327368900, 202621359288333166469300,
  202660927761991315049400, 202671100261616621886600, 202720713637535344584800, 202760765754831611290700, 202800723330946299231600,
  202820922554741240081500, 202940978993142129090900, 202951100261616621886600, 203010603636824282725100, 203020667616831131108400,
  203030869131913262280000, 203041155600140440365400, 203051428603051222463800, 203070688744825598320100, 203080643696673839305900,
  203090894849243252332000, 203130989570507473606200, 203160503467616415784100, 203171125750841584765600, 203290906747811414546400,
  203351059715105811070200, 203510546267702711084700, 203551538464280089274700, 203580544883327689449500, 203601359288333166469300,
  203630685334948509772900, 203650895653752820815200, 203790790703855769515900, 203810686027540572851000, 203900785684881317130400,
  203910901817235316131000, 203921077947261490465700, 203980986318188303050100, 204050699006932302442150, 204150724871002888785700,
  204190648682379138199100, 204311377520488845864800, 204390877125858251319000, 204400979739414249249800, 204450496132033043304150,
  204490731969190914360400, 204561004230854892793600, 204611244020382172630700, 204620649258117534581400, 204630881797037108950700,
  204651071181396643084200, 204891105390946060641600, 204911038743052712863200, 204930991658265975761700, 204980712002197148153300,
  205041469149562033280400, 205051040790905847217300, 205060997299674903770800, 205110727541784780279300, 205130875132436761237100,
  205231359288333166469300, 205400713167560589195000, 205420769481413215626400, 205471538464280089274700, 205510800065334291423900,
  205581234012036316932500, 205590805554906464615600, 205651115053629629548800, 205700633353265448712200, 205720631138296946493300,
  205810856571873561722600, 205960901817235316131000, 205970785684881317130400, 205981249427104299658400, 205990876190647694290800,
  206050927761991315049400, 206070839438630039886700, 206131538464280089274700, 206321208880593488842000, 206330811293909400538000,
  206480900621661724116200, 206520819095698249763700, 206581188813523942626700, 206590616782346281885600, 206601399834843977285800,
  206630816573309327368900, 206671100261616621886600, 206700769481413215626400, 206770850941071361617100, 206870780957110138518700,
  206891077947261490465700, 206931377520488845864800, 207210890921008418865800, 207250993360434732704800, 207421428603051222463800,
  207451244020382172630700, 207670839438630039886700, 207780723100531450746500, 207860900621661724116200, 207961004230854892793600,
  207991343873265183743500, 208010775078924121098000, 208050697481212780501000, 208061538464280089274700, 208071155600140440365400,
  208080850631633260142400, 208090833886622401323600, 208110834060990361806300, 208120831052598469538500, 208130710570679860076800,
  208170831052598469538500, 208181343873265183743500, 208281042881574329148700, 208370659012094910422200, 208390850015614884996600,
  208401035420487950031200, 208411132419979034632900, 208440624226012209979200, 208481469149562033280400, 208490747258591271374200,
  208510579408675506185100, 208520669114612500811900, 208531004230854892793600, 208550552406274936789600, 208561015353418403816100,
  208590788025124173151000, 208600724753941125344700, 208690850015614884996600, 208741023714832407929400, 208761023714832407929400,
  208770693166818180316200, 208820847090545023306300, 208890721643987065669600, 208911117995018150178200, 208921042179817063284000,
  208961062246886609499300, 209000979739414249249800, 209011318741822355652900, 209080990400387755075700, 209121013236937284611700,
  209140739203614849253800, 209150594533586429956700, 209180915023207517437600, 209190807208930279015000, 209230823865833317836000,
  209280926875067540971500, 209340625724934973749100, 209371198344541923059300, 209391065725498218040800, 209400992505728674858800,
  209410823865833317836000, 209430562542985751367200, 209450932318588196473100, 209570805751950863345500, 209601538464280089274700,
  209711359288333166469300, 209731080993182238936600, 209751053261253697313100, 209771053261253697313100, 209821155600140440365400,
  209840891539248409697500, 209851012195261198786300, 209860400980767620326400, 209870740701770210815500, 209891180112386243663800,
  209911106715468735643700, 209931188813523942626700, 209951469149562033280400, 209980486082072538649200, 209990755461471835890800,
  210001538464280089274700, 210020859567105790057800, 210051298674752809437800, 210091289973615110474700, 210100718820598965772100,
  210150760308684165740800, 210190564067866887459700, 210210866442264575745300, 210240890000756525749600, 210280689543764601667950,
  210290862538753022905500, 210321330520125921291300, 210330616494633399254100, 210340890000756525749600, 210350862538753022905500,
  210381028477637306855000, 210400691014836400962600, 210460557590558490243100, 210470898438535558392600, 210491167107073418844000,
  210500659940917728001900, 210510853134370770667000, 210571298674752809437800, 210591169576334677881100, 210660815843379079207600,
  210690663776748132271900, 210701167107073418844000, 210760914827321068904300, 210780961945169810790400, 210850767309382126360200,
  210930767309382126360200, 210951036076228004647000, 210970744548398293595200, 210981013236937284611700, 211060837342881354238000,
  211090564067866887459700, 211171229360034753443300, 211190941849606176905700, 211230718820598965772100, 211271036076228004647000,
  211281104083737903906500, 211470797732509042333100, 211490815118738227131000, 211500721643987065669600, 211520492308350899376500,
  211530933255363196833000, 211551377520488845864800, 211600701108905967812100, 211610898771314567660300, 211621127376893671943700,
  211630981248876871498300, 211691330520125921291300, 211701108057770768857800, 211710936361945154322200, 211851108057770768857800,
  211871212654626287126500, 211911028477637306855000, 211930838430834061751700, 212020965454301791917400, 212050701108905967812100,
  212080961320167776273100, 212090933255363196833000, 212130931159826679234300, 212140936361945154322200, 212150732157988956595600,
  212201012195261198786300, 212371330520125921291300, 212400815118738227131000, 212460870128185512647300, 212530535012698595021600,
  212611060551930778121800, 212700764050617326475750, 212710903900644006415300, 212811180112386243663800, 212941034769019847912000,
  212950760392191477483000, 212971034769019847912000, 213050895331171895926800, 213060842429507179144100, 213071019725699505199200,
  213111105390946060641600, 213120842429507179144100, 213131205243829071754500, 213190652088560928850750, 213201076952228405148800,
  213221149282250278212200, 213270699596503171193800, 213301399834843977285800, 213311255142945683653200, 213320699596503171193800,
  213331071181396643084200, 213340758940787189057500, 213350934438808961533400, 213380860018573825510500, 213401145281716816842300,
  213440643696673839305900, 213451077947261490465700, 213481089600643116060800, 213511002805652622073600, 213551216576697602454800,
  213600834761518620647200, 213610818347191761106900, 213630782196155417086400, 213640794861498454089950, 213670918819867309822800,
  213680908937679945310300, 213710794861498454089950, 213820762716403430856900, 213851229360034753443300, 213870725753361554637260,
  213880892317462453903000, 214001244020382172630700, 214021129029823867064800, 214070757876076066412700, 214210892317462453903000,
  214220913081398931727500, 214261229360034753443300, 214350780752087001606900, 214420545363736231988000, 214430545363736231988000,
  214491071181396643084200, 214501068416243510033100, 214511162344268519918500, 214521164697318260938000, 214530536346110553997700,
  214570393904373959575100, 214620572987305079026000, 214630564249839876538300, 214640583234526206478200, 214650849913313085793100,
  214670854945821474544600, 214720971131953372125500, 214741012714742886496600, 214750897611400983325000, 214760970788899862446500,
  214781095382600204943400, 214801167107073418844000, 214810851770951643086600, 214820625118347325252300, 214830721163148916777600]

def emitB52_1 : List Nat := [
  214840665282221793064000, 214860938819071227372800, 214870409712595055692600, 214891147261979546460300, 214931130710535698702800,
  214950825294429042583700, 214961330520125921291300, 214970852397912944446100, 215011330520125921291300, 215051238891052733875700,
  215070724695461591514340, 215081162344268519918500, 215100944447154817231600, 215120606814223308817450, 215140955864269351229700,
  215160668880145804886500, 215170773304722703514700, 215180798524471756139400, 215200950690701911311000, 215210675895401332321200,
  215230894529242979265000, 215311249427104299658400, 215331174705664116636200, 215340857892024747576300, 215350978993142129090900,
  215420796047751985072000, 215431330520125921291300, 215450776983743618167500, 215470744762531137729400, 215480595516689899989400,
  215490949023996662789700, 215501157798031112242800, 215510718545344181468100, 215531074025190175137500, 215570915810613160528300,
  215580955864269351229700, 215600644966075167951400, 215610860699620725763200, 215630976424193517559800, 215641053261253697313100,
  215711234012036316932500, 215741153449519918269000, 215760730595457166287500, 215780609641589025949400, 215840955864269351229700,
  215890907654435938321700, 215951469149562033280400, 215961008632543434471200, 216021238891052733875700, 216080861845108623239800,
  216171289973615110474700, 216211005676663210316800, 216270971821611278031700, 216280710367840033937500, 216290802517516263712800,
  216320986318188303050100, 216341172108115476310200, 216361538464280089274700, 216381024884436384248700, 216431108057770768857800,
  216440911934158815503800, 216471143339908231132000, 216501091873468223816300, 216531025474408596967500, 216711117995018150178200,
  216760954691235372680900, 216791134159153305819800, 216830864294210624069400, 216931026067882148948800, 216960936119520793171500,
  216970916803669980788300, 216981244020382172630700, 217001000936439320858400, 217020967753253614387200, 217041330520125921291300,
  217090796886582547735500, 217191075966998760847700, 217410885814794132195800, 217541019168595000253900, 217561027869732699216800,
  217570951817474395945000, 217661090730598641454200, 217691399834843977285800, 217751141435088734062700, 217761180112386243663800,
  217921084134801862274400, 217960964807050341355700, 217991538464280089274700, 218041220658897054480200, 218060913659992638431900,
  218070913466755863326400, 218090868884388383425600, 218221116513509571664100, 218271538464280089274700, 218281185828227627658600,
  218300708113800201996600, 218390670278298792127700, 218521151344178998485600, 218550718545344181468100, 218701234012036316932500,
  218801330520125921291300, 218841015889612717954700, 218900967090999538338000, 218920830125495326745300, 218980860131760028878700,
  218991281969344343121000, 219051238891052733875700, 219120931853471078900000, 219140964807050341355700, 219160680203647092827900,
  219170755381980575743200, 219191298674752809437800, 219270953820402583502300, 219300819321347085636900, 219321274558547127749000,
  219341071181396643084200, 219430803476909615441100, 219471149282250278212200, 219571076952228405148800, 219581469149562033280400,
  219721113614755884338900, 219781008632543434471200, 219801134159153305819800, 219831106715468735643700, 219881359288333166469300,
  219891298674752809437800, 219951083076590929220700, 220071234012036316932500, 220161046466187506462300, 220220852397912944446100,
  220251125750841584765600, 220360907654435938321700, 220390848491969360787500, 220401428603051222463800, 220471032839699554444000,
  220571075966998760847700, 220621084134801862274400, 220631330520125921291300, 220641330520125921291300, 220650874476696706621200,
  220660907290799173983400, 220681177372488824852300, 220701080993182238936600, 220751100261616621886600, 220941124150807450121500,
  220991428603051222463800, 221041308205770789870200, 221201054045571443415600, 221320803476909615441100, 221510894529242979265000,
  221581083076590929220700, 221960816793331418329000, 221991036076228004647000, 222041281969344343121000, 222091083076590929220700,
  222181063971067252949800, 222250874476696706621200, 222271234012036316932500, 222281399834843977285800, 222341038069649494728900,
  222350942363746126947500, 222380463988983234421900, 222401080993182238936600, 222420987931126496038600, 222441027869732699216800,
  222531469149562033280400, 222560920049390995526500, 222600711565459138609100, 222660877664217559666100, 222690886255000272259600,
  222701053261253697313100, 222711377520488845864800, 222781068416243510033100, 222800971476187791222800, 222830886255000272259600,
  222850711565459138609100, 222901469149562033280400, 222911068416243510033100, 222941053261253697313100, 222960987931126496038600,
  223031074025190175137500, 223120631655747649743700, 223200851666839192245600, 223431058062175615949100, 223491040103617918441000,
  223511000014773810365800, 223520638034307233111250, 223531147261979546460300, 223620694002030231134600, 223680964163961308326600,
  223740935395754063148600, 224020781574713748575300, 224040792242786112455900, 224181234012036316932500, 224381090730598641454200,
  224431095382600204943400, 224461039421021411401100, 224750785577354425049700, 224780845121977516203200, 225190642494565393336000,
  225210737494744314982700, 225220972865099007289500, 225330694002030231134600, 225340828792142239798800, 225490976424193517559800,
  225700939568138400288400, 225770614445240694768000, 225810854516636266390600, 226040973215362062409800, 226090899944840189502300,
  226150962890058730583600, 226221066614392959765400, 226350858447273259054800, 226451220658897054480200, 226661095382600204943400,
  226840964163961308326600, 226860443527588634071400, 227020976424193517559800, 227181090730598641454200, 227211201734697090627400,
  227251151344178998485600, 227390725753361554637260, 227441234012036316932500, 227501000014773810365800, 227510792242786112455900,
  227660894849243252332000, 227670894849243252332000, 227680878613377227823200, 227880574825068720001300, 227910811293909400538000,
  227970591795623677463740, 227991255142945683653200, 228060800750908805879300, 228100788743557768943050, 228120985521371338132500,
  228151127376893671943700, 228161127376893671943700, 228180961009125534834000, 228201359288333166469300, 228211106715468735643700,
  228230648942421712712800, 228250838613315864214700, 228261343873265183743500, 228291051710835043716600, 228301037400750679649200,
  228311044300037828344300, 228330610375077296562000, 228360958252442551568400, 228391172108115476310200, 228400858447273259054800,
  228410880261766199992100, 228420764789911843925300, 228460880261766199992100, 228550770770565507466800, 228560954109838386138900,
  228570798892119229070300, 228590883070939686693600, 228630946038700347821600, 228651101519494842572700, 228680772076554218927800,
  228700990400387755075700, 228710847688752191061000, 228741108057770768857800, 228800814758377476801000, 228821094199154440243200,
  228900764789911843925300, 228940883070939686693600, 228991224914858496359700, 229001009637577019821300, 229041024884436384248700,
  229090648055588695378100, 229140723561893284097800, 229160947928095283817700, 229181244020382172630700, 229220947113979525447800,
  229301108057770768857800, 229341289973615110474700, 229411244020382172630700, 229490932785878766412300, 229520932318588196473100,
  229870806942441113977400, 229931085204330773949300, 229960779429585529018300, 230001399834843977285800, 230141024884436384248700,
  230410977884073459675000, 230471145281716816842300, 230941109418335974435600, 231131220658897054480200, 231301308205770789870200,
  231861538464280089274700, 231941428603051222463800, 232181032204776786578100, 232301094199154440243200, 232330989158135755220000,
  232410971131953372125500, 232441065725498218040800, 232541164697318260938000, 232651298674752809437800, 233051050944547769159600,
  233081145281716816842300, 233191234012036316932500, 233601377520488845864800, 233810972168232075680200, 233840595886852067240800,
  233890973919590324951100, 233960921294220348183200, 233980680110022893497700, 234081267659259979053800, 234111172108115476310200,
  234130959162919250860400, 234160680110022893497700, 234251069329491866360400, 234320779379067720416700, 234330617971706161806400,
  234360581285887290273100, 234391538464280089274700, 234481082029460942491100, 234500694692581097830700, 234511017515664805132800,
  234521026664898847599300, 234540507402486092939400, 234560956455987054038600, 234570654507629723479900, 234581087378329437589700,
  234590638058886316435200, 234621538464280089274700, 234721077947261490465700, 234750767219896661775800, 234761028477637306855000,
  234771238891052733875700, 234780989158135755220000, 234810868268243489020700, 234850917003470247055600, 234871078952295075815800,
  234901255142945683653200, 234920832073883942068000, 234940846891935226143400, 235000766108032861477800, 235060971131953372125500,
  235071117995018150178200, 235190884361280170284500, 235211201734697090627400, 235241469149562033280400, 235260507402486092939400,
  235271069329491866360400, 235290654507629723479900, 235310721643987065669600, 235320917003470247055600, 235410956455987054038600,
  235441428603051222463800, 235450611612786486549300, 235470688683632327670000, 235480630897733224316700, 235530779328575419419700,
  235560914631817585324000, 235581075966998760847700, 235591075966998760847700, 235600794097911777715700, 235620798892119229070300,
  235630688683632327670000, 235650611612786486549300, 235660630897733224316700, 235670738630740493976600, 235690918616408440044000,
  235740991658265975761700, 235761220658897054480200, 235780804575466705386900, 235810848491969360787500, 235891359288333166469300,
  236010660770415571775250, 236081054045571443415600, 236130898106860295793300, 236141045016886776205600, 236151077947261490465700,
  236160922766381530719200, 236181538464280089274700, 236210724549412200868300, 236221139565875432847400, 236240923831354322385100,
  236261139565875432847400, 236291054045571443415600, 236310972516058513312700, 236370685809351455248600, 236460693615680748630100,
  236481006163282175434000, 236521538464280089274700, 236530825374397059640200, 236600693615680748630100, 236630905670601716355300,
  236651101519494842572700, 236731105390946060641600, 236820895815434343505700, 237001084134801862274400, 237211399834843977285800,
  238031343873265183743500, 238150823159116595526700, 238301377520488845864800, 238350854302732441515600, 238490857009990363278900]

def emitB52_2 : List Nat := [
  238531428603051222463800, 238841052483039653107600, 239401428603051222463800, 240330808416998662495000, 240371167107073418844000,
  240381330520125921291300, 240390971131953372125500, 240401220658897054480200, 240410814184487809899200, 240460958555014643222200,
  240500702761836162933200, 240520934438808961533400, 240551147261979546460300, 240660854516636266390600, 240670774307835963177650,
  240720933963748685673600, 240760654304995408956700, 241020569583472125870000, 241070933963748685673600, 241091003753527017528000,
  241100697748771468544800, 241180569583472125870000, 241200802836292434200000, 241710697748771468544800, 241780689523199048896300,
  241790742536684077635200, 241800827558066520557600, 241820664686934056546500, 241840954400114351934900, 241850689523199048896300,
  241871047936802245431800, 241891052483039653107600, 241901538464280089274700, 241910944447154817231600, 241980875925043288479300,
  241991003753527017528000, 242111377520488845864800, 242120556475427223293400, 242230795630960670194200, 242300845512603012910000,
  242311109418335974435600, 242351377520488845864800, 242371072120370678068100, 242471003753527017528000, 242481308205770789870200,
  242651003753527017528000, 242751201734697090627400, 242850913081398931727500, 242900795630960670194200, 242910944447154817231600,
  243100664350637799173600, 243140537337765618318900, 243200435538185162613800, 243221012714742886496600, 243231117995018150178200,
  243240937828964129101500, 243351198344541923059300, 243371234012036316932500, 243381234012036316932500, 243391330520125921291300,
  243410553719663924024450, 243441056436123528771100, 243520796346527229735500, 243570832588464837408400, 243670864412344128652400,
  243691023135120639496900, 243730796346527229735500, 243750641599189751787300, 243770865960915872590500, 243780641599189751787300,
  243920865960915872590500, 243960832588464837408400, 243980864412344128652400, 244020716585564529126700, 244030683944541306691400,
  244050858447273259054800, 244180542861023769285400, 244251198344541923059300, 244261343873265183743500, 244321074991381266311300,
  244331044300037828344300, 244391108057770768857800, 244411119498805886632200, 244480804575466705386900, 244490682343272405973600,
  244530913466755863326400, 244551188813523942626700, 244591308205770789870200, 244600798524471756139400, 244641469149562033280400,
  244661057245844552033100, 244710552746100123313160, 244720903725359123673800, 244761229360034753443300, 244780677250313216755700,
  244810966433102428533700, 244901185828227627658600, 244940883213491385815700, 245010682343272405973600, 245150759311998174201600,
  245170843862880979352000, 245181198344541923059300, 245240959162919250860400, 245250754906355422278300, 245271077947261490465700,
  245341229360034753443300, 245351137730961566027700, 245360785846388754660200, 245370966433102428533700, 245440951252501141733300,
  245481261205407865296700, 245510931853471078900000, 245551122575971753307700, 245650854089285188652300, 245730825694910154535000,
  245760722269700142405750, 245781044300037828344300, 245801224914858496359700, 245940996410780162046300, 245961079967532222217700,
  245971289973615110474700, 246040959162919250860400, 246050766862753425016100, 246080979365582038189200, 246091229360034753443300,
  246130829206908491806900, 246151229360034753443300, 246161021985682696923400, 246181037400750679649200, 246231377520488845864800,
  246350759105599752116400, 246510902161469735228400, 246531117995018150178200, 246561074991381266311300, 246611051710835043716600,
  246740665298359935598900, 246751212654626287126500, 246771119498805886632200, 246801185828227627658600, 246811075966998760847700,
  246821076952228405148800, 246850930242389051630200, 246871049429367267099300, 246880997299674903770800, 246910959162919250860400,
  246940873955183138710400, 246961208880593488842000, 246991377520488845864800, 247001007637510349154300, 247241024297924439008900,
  247261318741822355652900, 247351119498805886632200, 247361308205770789870200, 247390898604786635754100, 247480830967960292670500,
  247541097792355362849500, 247581185828227627658600, 247641102793397420315600, 247730949023996662789700, 247780756862896173372100,
  247851255142945683653200, 247961040103617918441000, 247990908385700622950400, 248001110797668187669300, 248010873955183138710400,
  248060994222509037095400, 248070993360434732704800, 248080957350180791604700, 248090863471160710417800, 248151048680300094183700,
  248171007637510349154300, 248190592595907658061400, 248251015353418403816100, 248271377520488845864800, 248381469149562033280400,
  248400973919590324951100, 248470707792375769005750, 248581109418335974435600, 248590863471160710417800, 248630584291452420471650,
  248641229360034753443300, 248670980114649211105000, 248680897282453318285200, 248711155600140440365400, 248950726942082833042000,
  249081298674752809437800, 249091229360034753443300, 249101062246886609499300, 249131267659259979053800, 249171167107073418844000,
  249200957350180791604700, 249271208880593488842000, 249301063105260978638400, 249311048680300094183700, 249361102793397420315600,
  249381224914858496359700, 249391044300037828344300, 249440959468262999549500, 249500875925043288479300, 249620931853471078900000,
  249741005676663210316800, 249760959162919250860400, 249771080993182238936600, 249960897282453318285200, 249991023714832407929400,
  250001274558547127749000, 250011229360034753443300, 250041469149562033280400, 250141198344541923059300, 250260836534614717770400,
  250310959162919250860400, 250330556475427223293400, 250341001400477276508600, 250421024297924439008900, 250740863471160710417800,
  250771177372488824852300, 250781024297924439008900, 250790722269700142405750, 250800830967960292670500, 250821077947261490465700,
  250840993360434732704800, 250861267659259979053800, 250880902161469735228400, 251011071181396643084200, 251021229360034753443300,
  251030974273572995463500, 251040468056721753620100, 251060951817474395945000, 251091267659259979053800, 251101188813523942626700,
  251120795988103906953900, 251211318741822355652900, 251300661934031214455300, 251360795988103906953900, 251380974273572995463500,
  251391155600140440365400, 251401289973615110474700, 251511050944547769159600, 251520690307678711966100, 251531238891052733875700,
  251591191890689809302200, 251630776197884956915300, 251650877394675617499000, 251660967753253614387200, 251690931621721264863800,
  251701047936802245431800, 251710519842290563075250, 251720938075573378621000, 251760833712557953545300, 251791318741822355652900,
  251870835999377043911100, 251901109418335974435600, 251910642494565393336000, 251930583071272452648900, 251950810739507426126400,
  251960905849332773764900, 251970798524471756139400, 251980874738476960829000, 251991056436123528771100, 252000966433102428533700,
  252031076952228405148800, 252060831222090035537800, 252090677104911519019600, 252120990817924896123800, 252140708635216653346600,
  252150612114088080233300, 252161289973615110474700, 252200941083318902348700, 252250976062529470541000, 252260742048708205181000,
  252330775758538387381400, 252340921503206840129300, 252350738496422139329800, 252370601610281424302100, 252380963524981498449400,
  252390736634666237722800, 252400730906016422102800, 252420841673359909086500, 252430799817195206285400, 252481399834843977285800,
  252500759809099446403650, 252520805292783116628300, 252530614445240694768000, 252560941338096110228600, 252590704609792090416900,
  252600718793039367967800, 252650813898773329821200, 252690745731844058295400, 252731020849306831892000, 252760968419922750206100,
  252770742257549213908200, 252821115053629629548800, 252841289973615110474700, 252850620044108652626050, 252860777577217170148850,
  252881100261616621886600, 252890708461108911317300, 252910799817195206285400, 252921100261616621886600, 252930743979608989075200,
  252961058062175615949100, 252980766285102407521200, 252990834148288490440800, 253000880261766199992100, 253020810947048143997600,
  253031191890689809302200, 253040886993011002021900, 253061070251157376852900, 253070654725194534805000, 253080807142241380244700,
  253110870881957925790000, 253141377520488845864800, 253151177372488824852300, 253170656320544872575200, 253180823865833317836000,
  253191274558547127749000, 253200842619440759509300, 253210977151469450467800, 253251195065559640760200, 253261205243829071754500,
  253270941593524090738200, 253290910237605399674000, 253311234012036316932500, 253321538464280089274700, 253351050944547769159600,
  253400870630068623841600, 253421027265501253620500, 253430724520227901813900, 253450612952028614467200, 253460760392191477483000,
  253510561502955691294800, 253530856244541027225700, 253610798341153647973300, 253660828709395027795500, 253711255142945683653200,
  253741330520125921291300, 253751021985682696923400, 253761137730961566027700, 253770907836751394473200, 253790788854545571679200,
  253800854195951865432500, 253810809776638914204800, 253840895977377698736000, 253860937092764484994600, 253870997747102943263000,
  253910760685017455391800, 254011538464280089274700, 254020895492332285361100, 254050886402167333405300, 254061021985682696923400,
  254101016970704328376300, 254131343873265183743500, 254140995529717193830700, 254170903201340457318100, 254191359288333166469300,
  254210995969278341134500, 254221101519494842572700, 254231060551930778121800, 254240863237242475100600, 254290801441215908566700,
  254381110797668187669300, 254390751792051575601900, 254411216576697602454800, 254420768570660107930000, 254430957350180791604700,
  254471084134801862274400, 254540742676544240293500, 254621129029823867064800, 254631399834843977285800, 254671377520488845864800,
  254720847389201293081300, 254741121025553099711100, 254750810739507426126400, 254800762417577167932700, 254810918413362685005700,
  254840730999372582609600, 254870831052598469538500, 254881089600643116060800, 254900607500022784270300, 254960907290799173983400,
  254970788854545571679200, 254990760392191477483000, 255040870504361504836600, 255050550105188007107700, 255060684568811769499800,
  255071067511259958041400, 255090538639067191219740, 255110585229139614119400, 255120508392394517556000, 255130812693512373270500,
  255141013236937284611700, 255201141435088734062700, 255231052483039653107600, 255271330520125921291300, 255300983556671599752800,
  255361177372488824852300, 255451095382600204943400, 255510717397476972977200, 255520445962200778718600, 255540854089285188652300]

def emitB52_3 : List Nat := [
  255581343873265183743500, 255620905849332773764900, 255630768570660107930000, 255690880261766199992100, 255710979739414249249800,
  255771205243829071754500, 255781169576334677881100, 255810753492904328787800, 255820809776638914204800, 255880942621810786296700,
  255901147261979546460300, 255971072120370678068100, 256000966105769894036600, 256010999101525454038600, 256021104083737903906500,
  256050937582961545015300, 256130751792051575601900, 256150955864269351229700, 256161399834843977285800, 256191205243829071754500,
  256201216576697602454800, 256220741079842494806100, 256230957350180791604700, 256280794156442654423300, 256300935395754063148600,
  256421094199154440243200, 256440812552667279564700, 256450805227359496368500, 256540759809099446403650, 256580826016453839932500,
  256611469149562033280400, 256680815770678239946000, 256700703421282735461250, 256710741079842494806100, 256721172108115476310200,
  256741002335063518332300, 256821087378329437589700, 256840947655986272381800, 256880931853471078900000, 256951104083737903906500,
  257030891694407478839500, 257050878205490870341200, 257151399834843977285800, 257200890613315868418000, 257211127376893671943700,
  257221359288333166469300, 257230983556671599752800, 257301105390946060641600, 257350898106860295793300, 257361110797668187669300,
  257440982781473919321000, 257450982781473919321000, 257460889240296587227700, 257471137730961566027700, 257490917003470247055600,
  257531469149562033280400, 257580894689115115634700, 257640732221000930955200, 257650842619440759509300, 257691041482950131674700,
  257710841673359909086500, 257721113614755884338900, 257730840178004942380600, 257741130710535698702800, 257760878477230167991200,
  257780931621721264863800, 257811208880593488842000, 257831289973615110474700, 257861105390946060641600, 257871330520125921291300,
  257881134159153305819800, 257911216576697602454800, 257930656320544872575200, 257941020285925060066200, 257961052483039653107600,
  257970893575340674589000, 257990977151469450467800, 258020740701770210815500, 258030907836751394473200, 258050637165640854448200,
  258061198344541923059300, 258101053261253697313100, 258120620044108652626050, 258161377520488845864800, 258180742676544240293500,
  258240854195951865432500, 258261137730961566027700, 258300974628813155900200, 258360870881957925790000, 258391172108115476310200,
  258401274558547127749000, 258410999101525454038600, 258421330520125921291300, 258440583071272452648900, 258471289973615110474700,
  258500703421282735461250, 258540966433102428533700, 258560809026550160392700, 258621208880593488842000, 258711377520488845864800,
  258741195065559640760200, 258760823865833317836000, 258801281969344343121000, 258810966105769894036600, 258831105390946060641600,
  258840826016453839932500, 258850815770678239946000, 258901195065559640760200, 258911255142945683653200, 258921002335063518332300,
  258980937582961545015300, 258991030323843590828600, 259001072120370678068100, 259030572763139999727700, 259100539805567918704550,
  259121137730961566027700, 259130535487508244629050, 259150674895571542872100, 259180556938554975103450, 259190889543786956743000,
  259251027265501253620500, 259280902506893222037100, 259321129029823867064800, 259370777626832651196500, 259430872791627671435700,
  259440849913313085793100, 259450859792585028766800, 259471110797668187669300, 259500996410780162046300, 259540916008437161738900,
  259550753492904328787800, 259581032204776786578100, 259640832588464837408400, 259680974985319772349800, 259700858002828083012400,
  259720671868483621139840, 259731129029823867064800, 259750976787170322617700, 259760974985319772349800, 259861110797668187669300,
  259871074025190175137500, 259911308205770789870200, 259951068416243510033100, 260070993360434732704800, 260090857339842229145400,
  260121031573859867251600, 260150944974860527316100, 260171141435088734062700, 260210948748893325600700, 260250921712631000440700,
  260280921712631000440700, 260290752214560366220300, 260320701386362793204650, 260390752214560366220300, 260450766862753425016100,
  260491018063611381595200, 260530900961798106465200, 260590837162701125311800, 260601359288333166469300, 260800575034273817223600,
  260850875792505164372400, 260871399834843977285800, 260880877934487994454600, 260890895653752820815200, 261020890000756525749600,
  261031359288333166469300, 261061134159153305819800, 261141044300037828344300, 261260650364017663717850, 261270902334032331975200,
  261310893575340674589000, 261431155600140440365400, 261440945239761344473800, 261491089600643116060800, 261571049429367267099300,
  261590591935018108770400, 261740556448251094637400, 261780890000756525749600, 261790972865099007289500, 261850951534588775897400,
  261870951534588775897400, 261911330520125921291300, 261941086285422384370800, 261950821683361657630400, 261971013761872873226200,
  262021075966998760847700, 262121281969344343121000, 262161267659259979053800, 262220880261766199992100, 262231157798031112242800,
  262281224914858496359700, 262340983168321597113000, 262381102793397420315600, 262420850425871870674200, 262481013761872873226200,
  262521308205770789870200, 262621115053629629548800, 262630806676660226625200, 262740936604958639651400, 262830850425871870674200,
  262920734451813644436800, 263130821683361657630400, 263330937337562648858700, 263361359288333166469300, 263481086285422384370800,
  263541143339908231132000, 263551343873265183743500, 263560709837334810968300, 263600946306438124893200, 263641469149562033280400,
  263670818795623005839900, 263680975702168720211000, 263710746020861600518700, 263770532770481364375500, 263810736010792928705300,
  263911008632543434471200, 263950811851402133629700, 263970898938120277729900, 263990759767579827787600, 264100738462870721467600,
  264121106715468735643700, 264211538464280089274700, 264260931390507289025700, 264291167107073418844000, 264320703091015862954600,
  264341035420487950031200, 264350996410780162046300, 264491469149562033280400, 264600989570507473606200, 264630957950783197626000,
  264651249427104299658400, 264690544883327689449500, 264810917605277479612000, 264831538464280089274700, 264940900791585299412000,
  264971035420487950031200, 265000644979246060298500, 265051151344178998485600, 265121038743052712863200, 265171298674752809437800,
  265190979739414249249800, 265241343873265183743500, 265380999557107107624700, 265411234012036316932500, 265430955276032360923100,
  265500895492332285361100, 265790898771314567660300, 265801469149562033280400, 265970714399393751783600, 266310873565825086797300,
  266331249427104299658400, 266410900282678348665000, 266460880261766199992100, 266570911176579434658000, 266661135929111015760000,
  266800825534525196337500, 266811014820083806279900, 266841090730598641454200, 266850950410981449204900, 266941289973615110474700,
  266961037400750679649200, 267021428603051222463800, 267751011164324232900200, 267811249427104299658400, 267831234012036316932500,
  267900961009125534834000, 268001238891052733875700, 268030906928479937041300, 268160758694076537605800, 268201117995018150178200,
  268271255142945683653200, 268341289973615110474700, 268660880261766199992100, 268931004230854892793600, 269971035420487950031200,
  270100856462643621861700, 270480969091066209005000, 270540949576484255986700, 270830644979246060298500, 270850999557107107624700,
  271380925995940999854400, 271610873565825086797300, 271690824102519818862700, 271780806147208294927800, 271891330520125921291300,
  271930900282678348665000, 272310931390507289025700, 272430806147208294927800, 272980758694076537605800, 273551249427104299658400,
  274020996410780162046300, 274240906207756096546500, 274250957650031091230500, 274260751524108831565800, 274270890459823896609500,
  274311220658897054480200, 274421090730598641454200, 274500840270812373636000, 274530993790542922643800, 274541021415880585459700,
  274591308205770789870200, 274630911365436903445000, 274651281969344343121000, 274680896464787274560500, 274721220658897054480200,
  274890751524108831565800, 274900822924649899601400, 274910659361294384678200, 274921343873265183743500, 274930851355150628220200,
  274940805423758904834700, 274950973566856273154200, 274981007637510349154300, 275110762716403430856900, 275120716585564529126700,
  275150707718347388080300, 275160891384329711014600, 275231185828227627658600, 275260996854239868832800, 275290923831354322385100,
  275301088483313056248400, 275310838066866417006800, 275381220658897054480200, 275420912506133682782500, 275440838066866417006800,
  275501220658897054480200, 275531112196292385143300, 275671112196292385143300, 275700891384329711014600, 275721042179817063284000,
  275780703091015862954600, 275831068416243510033100, 275840858335976642112700, 275850858335976642112700, 275901042179817063284000,
  275990967090999538338000, 276020995529717193830700, 276040690806329236180800, 276050747920115183246200, 276070968086032623654600,
  276091074025190175137500, 276270807543043519998500, 276651031573859867251600, 276680919843417699225400, 276830919843417699225400,
  276841377520488845864800, 276870840642905826205000, 276881399834843977285800, 276941267659259979053800, 276951049429367267099300,
  276961308205770789870200, 277000931390507289025700, 277041020285925060066200, 277140744548398293595200, 277190760392191477483000,
  277211094199154440243200, 277351538464280089274700, 277451061395817642708300, 277601399834843977285800, 277621021985682696923400,
  277691031573859867251600, 277700594533586429956700, 277731132419979034632900, 277771289973615110474700, 277840705667494258726000,
  277850705667494258726000, 277911125750841584765600, 277920994656349196955200, 277940435975459805807900, 278011089600643116060800,
  278070827068669132671300, 278090435975459805807900, 278131428603051222463800, 278140880261766199992100, 278271164697318260938000,
  278320987121405472776600, 278331065725498218040800, 278350638144960714617600, 278371172108115476310200, 278380969428334656868700,
  278390866804802737177000, 278440874476696706621200, 278451191890689809302200, 278491224914858496359700, 278501229360034753443300,
  278521208880593488842000, 278611141435088734062700, 278670868514246073107000, 278731012714742886496600, 278740971131953372125500,
  278751208880593488842000, 278771359288333166469300, 278800577411790525232700, 278871208880593488842000, 278991205243829071754500,
  279001096580219309615000, 279051330520125921291300, 279081054836089394127000, 279151044300037828344300, 279221063971067252949800]

def emitB52_4 : List Nat := [
  279270749293814156264100, 279341007637510349154300, 279450874476696706621200, 279461538464280089274700, 279581031573859867251600,
  279630695649942631002200, 279651046466187506462300, 279660766996532709182100, 279690593379058344126300, 279731208880593488842000,
  279741169576334677881100, 279750994222509037095400, 279790741079842494806100, 279821071181396643084200, 279831076952228405148800,
  279871016970704328376300, 280091104083737903906500, 280100900113616600874200, 280140849607034132738500, 280201201734697090627400,
  280230936604958639651400, 280240887885874076452000, 280340962890058730583600, 280400619053344202698200, 280410693765750452000700,
  280440777082411608411900, 280461281969344343121000, 280531238891052733875700, 280671119498805886632200, 280681343873265183743500,
  280700996410780162046300, 280720715726729405871300, 280731428603051222463800, 280781538464280089274700, 280850951534588775897400,
  280921198344541923059300, 281021343873265183743500, 281071020285925060066200, 281200863003870140478600, 281290930470960579715700,
  281320955276032360923100, 281360926875067540971500, 281380880261766199992100, 281391122575971753307700, 281401343873265183743500,
  281450677068594104420300, 281510806147208294927800, 281530903375708417800800, 281541208880593488842000, 281550916206653282138000,
  281650763359768292094600, 281741343873265183743500, 281761000936439320858400, 281801428603051222463800, 281830830545840628308000,
  281851119498805886632200, 281870562542985751367200, 281921229360034753443300, 281930879847114603807300, 282011108057770768857800,
  282040741079842494806100, 282101018614576962692200, 282120892944423755262700, 282160753492904328787800, 282340932318588196473100,
  282630777082411608411900, 282701091873468223816300, 282870824418975779159000, 282910916008437161738900, 282931255142945683653200,
  283040842050718847450400, 283100625724934973749100, 283161064844435249825200, 283170827068669132671300, 283221010143907215476000,
  283311108057770768857800, 283351115053629629548800, 283420816719936919621500, 283461058885225529600800, 283570827313068439659100,
  283630884361280170284500, 283641343873265183743500, 283690857781344050057200, 283780905492189537005200, 283820885522396263052300,
  283850672716606402945400, 283881109418335974435600, 283890954109838386138900, 283990885522396263052300, 284020830545840628308000,
  284041013761872873226200, 284140905492189537005200, 284150672716606402945400, 284171428603051222463800, 284180884505684527507800,
  284310966761509948652700, 284360665072662596522300, 284370947655986272381800, 284481132419979034632900, 284501094199154440243200,
  284591025474408596967500, 284651106715468735643700, 284660715726729405871300, 284721000936439320858400, 284791169576334677881100,
  284971096580219309615000, 285001330520125921291300, 285070818795623005839900, 285080818795623005839900, 285160996410780162046300,
  285261099019364622030900, 285280916008437161738900, 285321129029823867064800, 285441428603051222463800, 285480950690701911311000,
  285500994222509037095400, 285581100261616621886600, 286080735195792492512800, 286111016970704328376300, 286260941338096110228600,
  286290824418975779159000, 286391071181396643084200, 286411195065559640760200, 286510954109838386138900, 286551428603051222463800,
  286661255142945683653200, 286701109418335974435600, 286781343873265183743500, 286811205243829071754500, 286871076952228405148800,
  286930941338096110228600, 287011428603051222463800, 287101129029823867064800, 287480925124475789610000, 287531063971067252949800,
  287790891849807665512800, 287810827313068439659100, 287841101519494842572700, 287891157798031112242800, 287961101519494842572700,
  288180757957575663425850, 288221399834843977285800, 288251330520125921291300, 288431003278466741668100, 288451298674752809437800,
  288461003753527017528000, 288560984730853387421200, 288570670635168913418200, 288580579299341068616000, 288600873955183138710400,
  288661160045316697448700, 288791308205770789870200, 288881013236937284611700, 288911224914858496359700, 288951162344268519918500,
  289001082029460942491100, 289021172108115476310200, 289030784561574506875300, 289071088483313056248400, 289090793108092924937500,
  289210995969278341134500, 289380966761509948652700, 289491070251157376852900, 289531137730961566027700, 289540866442264575745300,
  289610575034273817223600, 289661135929111015760000, 289971224914858496359700, 290010873955183138710400, 290061043588291051458000,
  290171162344268519918500, 290221208880593488842000, 290281164697318260938000, 290291070251157376852900, 290310719013729112710700,
  290331172108115476310200, 290381060551930778121800, 290530976787170322617700, 290600952101162529465100, 290711160045316697448700,
  290760932318588196473100, 290870768208668762416600, 290961155600140440365400, 291001038743052712863200, 291050793108092924937500,
  291230808282045875481500, 291291399834843977285800, 291341172108115476310200, 291380784561574506875300, 291451088483313056248400,
  291510833886622401323600, 291651224914858496359700, 291900673607053142013100, 292111160045316697448700, 292280918008503832405700,
  292290703800071067154900, 292330863471160710417800, 292551399834843977285800, 292731359288333166469300, 292791047936802245431800,
  292821071181396643084200, 292871047936802245431800, 292890988747457559954600, 293010793805770173502300, 293050855268923532689300,
  293060827803666316544600, 293090793805770173502300, 293131141435088734062700, 293301121025553099711100, 293431289973615110474700,
  293510827803666316544600, 293590881375983855316400, 293661129029823867064800, 293690875527954745529900, 293761129029823867064800,
  293780914631817585324000, 293901274558547127749000, 293921025474408596967500, 293991343873265183743500, 294011058062175615949100,
  294061229360034753443300, 294081087378329437589700, 294091377520488845864800, 294171155600140440365400, 294200655234694144873800,
  294541045738911573554300, 294670894689115115634700, 294680827068669132671300, 294691109418335974435600, 294771220658897054480200,
  294831298674752809437800, 294860801315350567847000, 294940875527954745529900, 295180990400387755075700, 295440655234694144873800,
  295521229360034753443300, 295540583504835092079700, 295571045738911573554300, 295630801315350567847000, 295750759975350523765000,
  295771249427104299658400, 296090899776348153010400, 296150853663752631638500, 296160715273455732857000, 296231121025553099711100,
  296450931390507289025700, 296731330520125921291300, 296771083076590929220700, 296940715273455732857000, 297020643722685024261900,
  297300909122352204626700, 297911201734697090627400, 298720853663752631638500, 299160979739414249249800, 299221308205770789870200,
  299260929333291881505000, 299561089600643116060800, 299760933020345462337800, 299781072120370678068100, 299830583213217118071500,
  299860575592109554185400, 299920589909787797589700, 299930972865099007289500, 299971238891052733875700, 300001255142945683653200,
  300030616267034468685800, 300050979365582038189200, 300071261205407865296700, 300111048680300094183700, 300210936604958639651400,
  300271330520125921291300, 300281003278466741668100, 300310938819071227372800, 300410626368024006778250, 300441238891052733875700,
  300451298674752809437800, 300500747920115183246200, 300530827394667791392100, 300591048680300094183700, 300641012714742886496600,
  300700683944541306691400, 300721399834843977285800, 300900971131953372125500, 300950837072732608222000, 300970850323149725021200,
  301031036736296407782400, 301271031573859867251600, 301300997299674903770800, 301401062246886609499300, 301421021415880585459700,
  301490833973768376337800, 301541032204776786578100, 301710840456686033098400, 301961100261616621886600, 302191031573859867251600,
  302501469149562033280400, 302510968419922750206100, 302741036736296407782400, 303031469149562033280400, 303210968419922750206100,
  303310676941586920514600, 303320393904373959575100, 303330956159690540973000, 303381267659259979053800, 303431428603051222463800,
  303441001866678587089700, 303850993360434732704800, 303861198344541923059300, 303881298674752809437800, 303921198344541923059300,
  303940993360434732704800, 304061308205770789870200, 304081115053629629548800, 304101195065559640760200, 304161162344268519918500,
  304170841579242255080000, 304220984337925573432100, 304230868760855322626400, 304240761695552370584000, 304270766551295998601600,
  304280868760855322626400, 304311308205770789870200, 304330898106860295793300, 304350841579242255080000, 304360761695552370584000,
  304371318741822355652900, 304421000014773810365800, 304460901817235316131000, 304470939819079560831000, 304501160045316697448700,
  304520685473083706873600, 304560483182934734552400, 304600939819079560831000, 304650899608139534711900, 304750471355015687866500,
  304951308205770789870200, 305041001866678587089700, 305051000474544735228800, 305111117995018150178200, 305191085204330773949300,
  305221073068245073522500, 305240805161978650626700, 305280715060859320070700, 305541359288333166469300, 305610758407014622209800,
  305630874085306774507700, 305960898938120277729900, 305971094199154440243200, 305991117995018150178200, 306041055632906359044700,
  306060989984586740209200, 306091143339908231132000, 306101185828227627658600, 306221185828227627658600, 306231229360034753443300,
  306241208880593488842000, 306291050944547769159600, 306310855484906338032200, 306330982396116987722000, 306341104083737903906500,
  306371031573859867251600, 306511115053629629548800, 306631180112386243663800, 306791051710835043716600, 306820982396116987722000,
  306841428603051222463800, 306901191890689809302200, 306930523754262520307000, 306991026067882148948800, 307010917404272386809400,
  307021229360034753443300, 307031026067882148948800, 307071160045316697448700, 307191124150807450121500, 307211188813523942626700,
  307321109418335974435600, 307330960081761856301000, 307400738563558764879300, 307571238891052733875700, 307720640296116091888500,
  307761026664898847599300, 308131164697318260938000, 308271040790905847217300, 308280959162919250860400, 308300602226827306106750,
  308611162344268519918500, 308621089600643116060800, 308960787093355305304300, 308971201734697090627400, 308991143339908231132000,
  309060602226827306106750, 309081188813523942626700, 309101104083737903906500, 309131007143682185096100, 309171220658897054480200,
  309330909307366133442800, 309520877799261469453300, 310011162344268519918500, 310141124150807450121500, 310340847389201293081300]

def emitB52_5 : List Nat := [
  310361016428697581442400, 310480902506893222037100, 310671020285925060066200, 310690932085759220514000, 310700980869369774643100,
  310801359288333166469300, 310850849403368074558000, 310951064844435249825200, 310961188813523942626700, 311040832674486348089200,
  311050754827304034762400, 311091124150807450121500, 311171188813523942626700, 311191343873265183743500, 311420966433102428533700,
  311461124150807450121500, 311501016428697581442400, 311531064844435249825200, 311630638428299370449450, 311671195065559640760200,
  311690953531802094588900, 311711195065559640760200, 311770955864269351229700, 311791057245844552033100, 311810758611974726754200,
  311851124150807450121500, 311921229360034753443300, 311990793980952700055500, 312091538464280089274700, 312150745731844058295400,
  312160585941869903963900, 312270808416998662495000, 312320940070652020555800, 312371428603051222463800, 312431069329491866360400,
  312451130710535698702800, 312461428603051222463800, 312780758611974726754200, 312810585941869903963900, 312830910424696193255300,
  312931015353418403816100, 313090745731844058295400, 313191469149562033280400, 313370910424696193255300, 313481116513509571664100,
  313501428603051222463800, 313511089600643116060800, 313540800688389266487600, 313590763963999737690900, 313610745804020171136400,
  313631010143907215476000, 313781000936439320858400, 313821180112386243663800, 313881191890689809302200, 313891134159153305819800,
  313970969766744455292900, 314011134159153305819800, 314061089600643116060800, 314180969766744455292900, 314281191890689809302200,
  314341010143907215476000, 314350769207315282484200, 314460951252501141733300, 314490808484543413458700, 314540811641977973318200,
  314550869008074237165200, 314590934677188097061000, 314691155600140440365400, 314710900452026399298300, 314780811641977973318200,
  314911121025553099711100, 315050917605277479612000, 315081141435088734062700, 315260726583980391271300, 315480901132301131573500,
  315581141435088734062700, 315610653512883540635000, 315690925341631140960700, 315701469149562033280400, 315720711950717095536200,
  315740877529355772536800, 315790964807050341355700, 316090771141967977104000, 316140669517838853605800, 316160708934394139028900,
  316291289973615110474700, 316390716585564529126700, 316490780139527658938600, 316800726286538173167350, 316890925341631140960700,
  317130995969278341134500, 317161121025553099711100, 317210964807050341355700, 317510955569718328254100, 317770708934394139028900,
  317861281969344343121000, 318050669517838853605800, 318200771141967977104000, 318211155600140440365400, 318400901132301131573500,
  318581238891052733875700, 318670735781922467511900, 318810893733693835153500, 318951077947261490465700, 318960938819071227372800,
  319340769070547538347600, 319411191890689809302200, 319461052483039653107600, 319581281969344343121000, 319641037400750679649200,
  319670999557107107624700, 319951039421021411401100, 319980831902943729503000, 320000846991190817418600, 320040854302732441515600,
  320050986718990442804000, 320130780700896829002000, 320191281969344343121000, 320200938819071227372800, 320271055632906359044700,
  320320908019399847076700, 320330956455987054038600, 320340921712631000440700, 320390814902365982599800, 320470722784575421709700,
  320480841861861378663400, 320660818795623005839900, 320680541733573564366560, 320701143339908231132000, 320800570906011677254000,
  320850809776638914204800, 320941091873468223816300, 320971185828227627658600, 321020706468177900622000, 321101185828227627658600,
  321130585664901796880000, 321290977884073459675000, 321431094199154440243200, 321470718903323360397300, 321561047198791515669600,
  321601261205407865296700, 321621298674752809437800, 321730634201127334267400, 321781070251157376852900, 321871048680300094183700,
  321901143339908231132000, 321910982396116987722000, 322020814902365982599800, 322161164697318260938000, 322211060551930778121800,
  322240929559792544590200, 322271377520488845864800, 322320718820598965772100, 322330762374960504172400, 322361124150807450121500,
  322440865481873040327300, 322641122575971753307700, 322991000014773810365800, 323020732948506907306900, 323050793514479550989900,
  323111538464280089274700, 323170759105599752116400, 323210739643920387017200, 323231091873468223816300, 323251045738911573554300,
  323400910237605399674000, 323411195065559640760200, 323461041482950131674700, 323500876456959436239200, 323531034121768397350200,
  323620942106345727430200, 323710820457292658995200, 323800547140295691394100, 323861112196292385143300, 323960988338459034802000,
  323990930929676980406400, 324061143339908231132000, 324160831902943729503000, 324180986718990442804000, 324201143339908231132000,
  324220854302732441515600, 324260846991190817418600, 324310938819071227372800, 324350780700896829002000, 324370793514479550989900,
  324391055632906359044700, 324420956455987054038600, 324461281969344343121000, 324510865481873040327300, 324520541733573564366560,
  324540841861861378663400, 324550910237605399674000, 324560818795623005839900, 324581143339908231132000, 324630718903323360397300,
  324650977884073459675000, 324670570906011677254000, 324690876456959436239200, 324720942106345727430200, 324730706468177900622000,
  324761185828227627658600, 324770809776638914204800, 324781091873468223816300, 324790585664901796880000, 324831034121768397350200,
  324851094199154440243200, 324870547140295691394100, 324911143339908231132000, 324930988338459034802000, 325000634201127334267400,
  325010982396116987722000, 325031091873468223816300, 325041298674752809437800, 325081047198791515669600, 325091048680300094183700,
  325111261205407865296700, 325161164697318260938000, 325171124150807450121500, 325211060551930778121800, 325310762374960504172400,
  325320929559792544590200, 325331538464280089274700, 325340718820598965772100, 325361377520488845864800, 325411000014773810365800,
  325440930929676980406400, 325530732948506907306900, 325551045738911573554300, 325571041482950131674700, 325581195065559640760200,
  325640820457292658995200, 325700702550791413478600, 325931070251157376852900, 325961359288333166469300, 325991034769019847912000,
  326020903375708417800800, 326100845024559096419000, 326220811502605128457900, 326240903375708417800800, 326261052483039653107600,
  326291000014773810365800, 326310845024559096419000, 326331122575971753307700, 326411014820083806279900, 326451034769019847912000,
  326481014820083806279900, 326540942880543142791800, 326661469149562033280400, 326700982012239357005400, 326730945771677492233700,
  326761041482950131674700, 326800945771677492233700, 326811116513509571664100, 327011115053629629548800, 327220971131953372125500,
  327251343873265183743500, 327281045738911573554300, 327451428603051222463800, 327531132419979034632900, 327611045738911573554300,
  327630722755901586387800, 327690967753253614387200, 327710610086611084338300, 327801029089260008598600, 327811045738911573554300,
  327841020285925060066200, 327890888485576023689400, 327910839715255389175800, 327931399834843977285800, 328101469149562033280400,
  328190973566856273154200, 328231067511259958041400, 328240987525446426477000, 328271119498805886632200, 328290862075789233031200,
  328381047198791515669600, 328420948200946749138200, 328441047936802245431800, 328520575644772316247800, 328560897941434286190600,
  328580735716627003226600, 328620836803311699852900, 328790575644772316247800, 328820878613377227823200, 328830987525446426477000,
  328871047936802245431800, 328930595516689899989400, 328990986718990442804000, 329001135929111015760000, 329010986718990442804000,
  329021050944547769159600, 329031289973615110474700, 329051244020382172630700, 329081177372488824852300, 329221318741822355652900,
  329281289973615110474700, 329291160045316697448700, 329301198344541923059300, 329371049429367267099300, 329430697681814653187600,
  329460911934158815503800, 329581071181396643084200, 329590957350180791604700, 329601191890689809302200, 329611045016886776205600,
  329661058885225529600800, 329720765578697704020500, 329880931159826679234300, 329930876190647694290800, 330111428603051222463800,
  330141047936802245431800, 330210609900944488113400, 330291045016886776205600, 330411298674752809437800, 330501021985682696923400,
  330670721163148916777600, 330730721163148916777600, 330800969091066209005000, 330811191890689809302200, 331001127376893671943700,
  331021071181396643084200, 331040872663175502200000, 331261298674752809437800, 331310957350180791604700, 331361106715468735643700,
  331391021985682696923400, 331441289973615110474700, 331450892317462453903000, 331471155600140440365400, 331500931159826679234300,
  331801177372488824852300, 331841047936802245431800, 331920860018573825510500, 331931155600140440365400, 332131058885225529600800,
  332221160045316697448700, 332250969091066209005000, 332511052483039653107600, 332531002805652622073600, 332551289973615110474700,
  332560721163148916777600, 332580599481822694277100, 332611129029823867064800, 332670938322792293159800, 332680724257951778860200,
  332870953820402583502300, 332880669114612500811900, 332890633941294898016600, 332901399834843977285800, 332921249427104299658400,
  332930862307003208869300, 332981030946898565892000, 333001359288333166469300, 333101011164324232900200, 333220813329781752053400,
  333911538464280089274700, 333941377520488845864800, 333951162344268519918500, 333991162344268519918500, 334021330520125921291300,
  334100726286538173167350, 334391330520125921291300, 334570848089554330814900, 334671298674752809437800, 334871052483039653107600,
  334991127376893671943700, 335031054045571443415600, 335091106715468735643700, 335100843382803245016400, 335791274558547127749000,
  336091034769019847912000, 336151377520488845864800, 336161145281716816842300, 336181060551930778121800, 336311094199154440243200,
  336331000014773810365800, 336350949576484255986700, 336431220658897054480200, 336471538464280089274700, 336601261205407865296700,
  336691185828227627658600, 336941377520488845864800, 337070912124453830112400, 337190583504835092079700, 337781281969344343121000,
  337951036076228004647000, 338040888185275497712500, 338060838430834061751700, 338290833886622401323600, 338301122575971753307700,
  338361343873265183743500, 338530673466849824269250, 338790715060859320070700, 339001074025190175137500, 339450938075573378621000,
  339501185828227627658600, 339760859679781858316800, 339880847389201293081300, 339950984337925573432100, 340651037400750679649200]

def emitB52_6 : List Nat := [
  340670913273891772686000, 340931220658897054480200, 341091169576334677881100, 341151359288333166469300, 341640888485576023689400,
  341841094199154440243200, 342141145281716816842300, 342241399834843977285800, 342550931159826679234300, 342561095382600204943400,
  342691330520125921291300, 342771538464280089274700, 342991318741822355652900, 343111052483039653107600, 343140888485576023689400,
  343491469149562033280400, 343821162344268519918500, 343831318741822355652900, 343841062246886609499300, 343890574825068720001300,
  343940882078727436062000, 343950882078727436062000, 343961318741822355652900, 343990825294429042583700, 344070927317546139007000,
  344321234012036316932500, 344531108057770768857800, 344961399834843977285800, 345031289973615110474700, 345061208880593488842000,
  345421274558547127749000, 345441105390946060641600, 345551033478679364321100, 345621021985682696923400, 345811033478679364321100,
  345831289973615110474700, 345861129029823867064800, 346151069329491866360400, 346230987525446426477000, 346311308205770789870200,
  346331127376893671943700, 346451234012036316932500, 346801289973615110474700, 347010774982212314720500, 347561105390946060641600,
  347961127376893671943700, 348211308205770789870200, 348370978252398001304800, 348491469149562033280400, 348501330520125921291300,
  348651208880593488842000, 348661212654626287126500, 348701108057770768857800, 348751274558547127749000, 348801145281716816842300,
  348920667782147750011800, 348930848794846927003600, 349000951534588775897400, 349071216576697602454800, 349090739203614849253800,
  349130874738476960829000, 349170691517034568792250, 349200459291425792922150, 349241047198791515669600, 349280744299154796219200,
  349491538464280089274700, 349621083076590929220700, 349870820001364817543400, 349890845512603012910000, 350090850015614884996600,
  350100919843417699225400, 350130694023537920216300, 350181538464280089274700, 350360691517034568792250, 350370694023537920216300,
  350431399834843977285800, 350571172108115476310200, 350640952670964640928900, 350651100261616621886600, 350901048680300094183700,
  351141070251157376852900, 351151330520125921291300, 351311137730961566027700, 351401274558547127749000, 351651399834843977285800,
  351831047198791515669600, 351860845512603012910000, 351990987525446426477000, 352010579121927170153100, 352060791898749075869100,
  352110656586463185573900, 352150738261798267663850, 352191005676663210316800, 352220793922524419106100, 352420823237394486020900,
  352441095382600204943400, 352501091873468223816300, 352580614019089928779800, 352611428603051222463800, 352640671730695104679100,
  352650656586463185573900, 352660671730695104679100, 352680738261798267663850, 352691005676663210316800, 352700793922524419106100,
  352721428603051222463800, 352730614019089928779800, 352741095382600204943400, 352801091873468223816300, 352820992932168553504700,
  352990538689106996653700, 353020799384427915707200, 353151377520488845864800, 353200799384427915707200, 353280921085669699081100,
  353300833019314275980700, 353360655030582687511000, 353381191890689809302200, 353420722841947769812300, 353470971131953372125500,
  353491198344541923059300, 353520639295607495792300, 353551201734697090627400, 353571308205770789870200, 353631195065559640760200,
  353700795452866233094700, 353730622896983025887300, 353770864886278665042000, 353800929333291881505000, 353860785041447461865900,
  353981162344268519918500, 354081010143907215476000, 354130682113870661326100, 354191004710472119143000, 354241143339908231132000,
  354260782560454544936400, 354300730812747334041900, 354331469149562033280400, 354361399834843977285800, 354371191890689809302200,
  354381042179817063284000, 354401224914858496359700, 354411208880593488842000, 354420951252501141733300, 354430989570507473606200,
  354551538464280089274700, 354611012714742886496600, 354621234012036316932500, 354630858447273259054800, 354650884073095532795600,
  354661169576334677881100, 354690485254658893424600, 354751113614755884338900, 354770849403368074558000, 354800860358517495656900,
  354861174705664116636200, 354881040790905847217300, 354891399834843977285800, 354910964163961308326600, 354920857781344050057200,
  354941017515664805132800, 354980529008044656791600, 355040846991190817418600, 355061180112386243663800, 355131059715105811070200,
  355190664526651925742500, 355221139565875432847400, 355270751983879756428800, 355310724520227901813900, 355331469149562033280400,
  355381016428697581442400, 355420821221822376790200, 355581172108115476310200, 355631080993182238936600, 355691151344178998485600,
  355711177372488824852300, 355750952957087869032000, 355760921085669699081100, 355840807208930279015000, 355851377520488845864800,
  355881169576334677881100, 355941137730961566027700, 356071538464280089274700, 356091085204330773949300, 356110753259259362685900,
  356130819396676656054100, 356161116513509571664100, 356271188813523942626700, 356281377520488845864800, 356351121025553099711100,
  356411069329491866360400, 356461141435088734062700, 356570674399380554959200, 356630986718990442804000, 356720847989203093090900,
  356761129029823867064800, 356860793050172274607000, 356911428603051222463800, 356920953820402583502300, 356950976062529470541000,
  356960763144853100840700, 357000925341631140960700, 357030805292783116628300, 357090884073095532795600, 357120807811140195324400,
  357220583234526206478200, 357310840085283563461300, 357450655030582687511000, 357460833019314275980700, 357480485254658893424600,
  357490986718990442804000, 357520722841947769812300, 357530840085283563461300, 357541198344541923059300, 357570971131953372125500,
  357580763144853100840700, 357591191890689809302200, 357600639295607495792300, 357620753259259362685900, 357631151344178998485600,
  357641121025553099711100, 357661308205770789870200, 357680864886278665042000, 357691201734697090627400, 357700821221822376790200,
  357730952957087869032000, 357740622896983025887300, 357750795452866233094700, 357761195065559640760200, 357770674399380554959200,
  357800682113870661326100, 357811004710472119143000, 357820847989203093090900, 357841010143907215476000, 357850929333291881505000,
  357860785041447461865900, 357871162344268519918500, 357930976062529470541000, 357951234012036316932500, 357970730812747334041900,
  357981538464280089274700, 357991469149562033280400, 358001224914858496359700, 358021040790905847217300, 358031012714742886496600,
  358051208880593488842000, 358060849403368074558000, 358071399834843977285800, 358081042179817063284000, 358091191890689809302200,
  358100782560454544936400, 358121469149562033280400, 358130951252501141733300, 358140989570507473606200, 358191399834843977285800,
  358200964163961308326600, 358211174705664116636200, 358230857781344050057200, 358250860358517495656900, 358280529008044656791600,
  358291017515664805132800, 358310724520227901813900, 358320921085669699081100, 358350807811140195324400, 358371059715105811070200,
  358381180112386243663800, 358410846991190817418600, 358430664526651925742500, 358441139565875432847400, 358451016428697581442400,
  358480751983879756428800, 358510807208930279015000, 358541137730961566027700, 358551080993182238936600, 358581377520488845864800,
  358651177372488824852300, 358671172108115476310200, 358740819396676656054100, 358751116513509571664100, 358761538464280089274700,
  358781085204330773949300, 358801069329491866360400, 358811141435088734062700, 358821188813523942626700, 358841377520488845864800,
  358891129029823867064800, 358920925341631140960700, 358931428603051222463800, 359050976787170322617700, 359120895815434343505700,
  359180951252501141733300, 359200961320167776273100, 359370796586191814195400, 359381174705664116636200, 359461080993182238936600,
  359801079967532222217700, 359871298674752809437800, 360000689811502378739600, 360071045738911573554300, 360090957350180791604700,
  360100898106860295793300, 360110804640465082715800, 360120846991190817418600, 360150863120488229496800, 360201121025553099711100,
  360220814112982622726700, 360230646907625518210200, 360270976424193517559800, 360280846991190817418600, 360291054836089394127000,
  360321063971067252949800, 360360962574102701546700, 360390947928095283817700, 360491012195261198786300, 360501145281716816842300,
  360601025474408596967500, 360620902853514019685700, 360640815118738227131000, 360670758940787189057500, 360681195065559640760200,
  360700869131913262280000, 360740787805102082190700, 360770873565825086797300, 360841049429367267099300, 360900873695442732941900,
  360911469149562033280400, 360920664031403689276400, 360931018614576962692200, 361011261205407865296700, 361040930470960579715700,
  361060764267490107206300, 361091134159153305819800, 361110888035462735610200, 361180840085283563461300, 361270689811502378739600,
  361310846991190817418600, 361330872791627671435700, 361360787805102082190700, 361370957350180791604700, 361380898106860295793300,
  361391045738911573554300, 361400814112982622726700, 361410664031403689276400, 361420863120488229496800, 361430804640465082715800,
  361451195065559640760200, 361480846991190817418600, 361491121025553099711100, 361530976424193517559800, 361541063971067252949800,
  361551054836089394127000, 361590962574102701546700, 361640947928095283817700, 361681012195261198786300, 361701145281716816842300,
  361710869131913262280000, 361720873565825086797300, 361740840085283563461300, 361750902853514019685700, 361761025474408596967500,
  361800815118738227131000, 361821049429367267099300, 361841261205407865296700, 361851469149562033280400, 361860873695442732941900,
  361871018614576962692200, 361900764267490107206300, 361920930470960579715700, 361931134159153305819800, 361940888035462735610200,
  361961117995018150178200, 361981034769019847912000, 361991428603051222463800, 362080569039589450183850, 362120983946535641318600,
  362140697927542465876700, 362150488849160637499700, 362290558412972398445000, 362340901474181806452200, 362350798830750709194000,
  362411538464280089274700, 362441104083737903906500, 362450697927542465876700, 362640798830750709194000, 362750791612952939641100,
  362760916803669980788300, 362821359288333166469300, 362871208880593488842000, 362910873955183138710400, 362991060551930778121800,
  363000795571560609047600, 363031469149562033280400, 363050939819079560831000, 363151298674752809437800, 363190708934394139028900,
  363280824339767854225700, 363300808282045875481500, 363350869131913262280000, 363390792127975537272700, 363410998196541902046900]

def emitB52_7 : List Nat := [
  363461008133789283367300, 363471008632543434471200, 363611046466187506462300, 363640982012239357005400, 363670893892298150717000,
  363680998196541902046900, 363831229360034753443300, 363861069329491866360400, 363930997747102943263000, 363981469149562033280400,
  363991267659259979053800, 364011097792355362849500, 364161343873265183743500, 364171359288333166469300, 364181068416243510033100,
  364241330520125921291300, 364251255142945683653200, 364331318741822355652900, 364341116513509571664100, 364411198344541923059300,
  364511116513509571664100, 364541116513509571664100, 364601244020382172630700, 364660987121405472776600, 364761281969344343121000,
  364791198344541923059300, 364811167107073418844000, 364900982012239357005400, 364911008632543434471200, 364930873955183138710400,
  364971267659259979053800, 365131318741822355652900, 365171198344541923059300, 365230770770565507466800, 365240916008437161738900,
  365300840829473044499800, 365381115053629629548800, 365541019725699505199200, 365551042881574329148700, 365571117995018150178200,
  365750983946535641318600, 365941318741822355652900, 366110967421578351787800, 366170898438535558392600, 366280873955183138710400,
  366290872534888120911100, 366371147261979546460300, 366391094199154440243200, 366491145281716816842300, 366500855268923532689300,
  366551070251157376852900, 366640703043923797097300, 366670794390909350348700, 366700977517100570778800, 366761172108115476310200,
  366810518245905464173900, 367030855268923532689300, 367101019725699505199200, 367111042881574329148700, 367160518245905464173900,
  367180855268923532689300, 367190983946535641318600, 367200855268923532689300, 367211318741822355652900, 367310872534888120911100,
  367330898438535558392600, 367390967421578351787800, 367410873955183138710400, 367441145281716816842300, 367451147261979546460300,
  367491094199154440243200, 367520794390909350348700, 367531070251157376852900, 367550703043923797097300, 367581172108115476310200,
  367590977517100570778800, 367630902161469735228400, 367640985918986176096400, 367660814830345813840400, 367671062246886609499300,
  367740721643987065669600, 367760870128185512647300, 367770869131913262280000, 367810814830345813840400, 367830869131913262280000,
  367851053261253697313100, 367861042179817063284000, 367931172108115476310200, 367980581613859392641400, 368010770677930021453800,
  368021016970704328376300, 368070582006044221953540, 368080882928590908208300, 368140728448135395614000, 368160677505276021054300,
  368170861385337698376800, 368200776197884956915300, 368240563116451568332800, 368270435736266115821200, 368280780649732847328200,
  368290772499984632806600, 368300736141811617607800, 368310968754931438734300, 368430788688110027017950, 368451102793397420315600,
  368481044300037828344300, 368550829290068579759600, 368561066614392959765400, 368610641484649491094200, 368640634106564679466700,
  368650684061295552295100, 368660633060542331196600, 368670700648181817206800, 368700908385700622950400, 368730595838492269409500,
  368741135929111015760000, 368790691202865287447800, 368801021985682696923400, 368820807945458549971100, 368841042881574329148700,
  368870967090999538338000, 368900652627416458473000, 368911044300037828344300, 368930907472452266623200, 368941050184087830637700,
  368951026067882148948800, 368960614193204888611400, 368971274558547127749000, 368981191890689809302200, 368990736141811617607800,
  369100885376517316686300, 369130861845108623239800, 369140435736266115821200, 369201318741822355652900, 369240824102519818862700,
  369261005676663210316800, 369291113614755884338900, 369301042179817063284000, 369350714241290952051700, 369380753492904328787800,
  369390677505276021054300, 369410825294429042583700, 369420582006044221953540, 369430889240296587227700, 369441155600140440365400,
  369470933963748685673600, 369480581613859392641400, 369490772499984632806600, 369510877260176605965600, 369530953820402583502300,
  369551267659259979053800, 369561135929111015760000, 369580807945458549971100, 369600780649732847328200, 369630899272568750014600,
  369650953820402583502300, 369681174705664116636200, 369690633060542331196600, 369730711539827970969200, 369740852083940943979500,
  369780968754931438734300, 369801115053629629548800, 369810783135619529232900, 369830770677930021453800, 369840595838492269409500,
  369860877260176605965600, 369910694131145807496600, 369920848896010314488000, 369930882928590908208300, 369941153449519918269000,
  369960563116451568332800, 370021172108115476310200, 370381078952295075815800, 370510892317462453903000, 370571090730598641454200,
  370661195065559640760200, 370960791784332587414600, 371091078952295075815800, 371171074991381266311300, 371450981629829713165000,
  371680892317462453903000, 371961249427104299658400, 371970635726419059794350, 372021162344268519918500, 372071074991381266311300,
  372130915810613160528300, 372191106715468735643700, 372211298674752809437800, 372251399834843977285800, 372281054045571443415600,
  372371330520125921291300, 372390987931126496038600, 372401167107073418844000, 372470964807050341355700, 372511127376893671943700,
  372571010652814166223100, 372591359288333166469300, 372660919023740978807500, 372761274558547127749000, 372780915810613160528300,
  372911019725699505199200, 373120964807050341355700, 373190550105188007107700, 373220778474084168425000, 373230778474084168425000,
  373250617031040764702800, 373261281969344343121000, 373270875000944303106300, 373361538464280089274700, 373411000936439320858400,
  373470977151469450467800, 373891198344541923059300, 374111099019364622030900, 374631153449519918269000, 374661255142945683653200,
  374671105390946060641600, 374761234012036316932500, 374920942621810786296700, 374961244020382172630700, 375211330520125921291300,
  375231274558547127749000, 375281110797668187669300, 375320951534588775897400, 375551012195261198786300, 375590961945169810790400,
  375611216576697602454800, 376041234012036316932500, 376100898106860295793300, 376281399834843977285800, 376360858447273259054800,
  376561167107073418844000, 376581428603051222463800, 376701469149562033280400, 376721399834843977285800, 376790936848564119439500,
  377091078952295075815800, 377230869628808694598700, 377491289973615110474700, 377820901989204404083700, 378011399834843977285800,
  378060773828907844674900, 378461093029550463924000, 378551061395817642708300, 378601109418335974435600, 379121046466187506462300,
  379311104083737903906500, 379411124150807450121500, 379560881937783085738800, 379690942621810786296700, 380020946038700347821600,
  380130836534614717770400, 380151106715468735643700, 380241000936439320858400, 380251538464280089274700, 380350977151469450467800,
  380411099019364622030900, 380451198344541923059300, 380471046466187506462300, 380501399834843977285800, 380540993790542922643800,
  380571234012036316932500, 380671153449519918269000, 380750836534614717770400, 380811124150807450121500, 380851105390946060641600,
  380861255142945683653200, 381151330520125921291300, 381201274558547127749000, 381211399834843977285800, 381251110797668187669300,
  381261428603051222463800, 381281244020382172630700, 381301061395817642708300, 381360881937783085738800, 381380898106860295793300,
  381440961945169810790400, 381450901989204404083700, 381481234012036316932500, 381521216576697602454800, 381601012195261198786300,
  381690936848564119439500, 381701399834843977285800, 381801167107073418844000, 381821469149562033280400, 381901289973615110474700,
  382030869628808694598700, 382081078952295075815800, 382101109418335974435600, 382150773828907844674900, 382201104083737903906500,
  382620946038700347821600, 382630763963999737690900, 382710763963999737690900, 382721028477637306855000, 382750793689152084484000,
  382810823472596476064000, 382830435538185162613800, 382900880400366360780000, 382910944447154817231600, 383210709109328583240300,
  383291139565875432847400, 383461149282250278212200, 383481281969344343121000, 383571538464280089274700, 383580940575703599162700,
  383640579408675506185100, 383690806809462370977200, 383701062246886609499300, 383761028477637306855000, 383780793689152084484000,
  383810823472596476064000, 383820670278298792127700, 383830940575703599162700, 383860880400366360780000, 383880944447154817231600,
  383911185828227627658600, 383930888035462735610200, 383950836803311699852900, 384050709109328583240300, 384091139565875432847400,
  384111469149562033280400, 384160806809462370977200, 384171281969344343121000, 384201149282250278212200, 384251538464280089274700,
  384500641255961804082300, 384510987931126496038600, 384520953531802094588900, 384530981248876871498300, 384590728721650229553500,
  384631220658897054480200, 384680836982844961720400, 384701229360034753443300, 384720857009990363278900, 384761469149562033280400,
  384770646425374081238950, 384800686645010914342700, 384971191890689809302200, 384990981248876871498300, 385000796586191814195400,
  385041208880593488842000, 385051261205407865296700, 385060875395941525037600, 385120953531802094588900, 385150857009990363278900,
  385171343873265183743500, 385181000474544735228800, 385190764702651803484400, 385201229360034753443300, 385250987931126496038600,
  385340917003470247055600, 385430845806576767002300, 385440784827886248823700, 385480892787314532058400, 385491208880593488842000,
  385561308205770789870200, 385680845806576767002300, 385701261205407865296700, 385770784827886248823700, 385820874869624520610100,
  385840874869624520610100, 385900759518823480607500, 385921281969344343121000, 385961115053629629548800, 385971308205770789870200,
  385980613961118912663500, 385990890921008418865800, 386041428603051222463800, 386130962574102701546700, 386171164697318260938000,
  386201035420487950031200, 386221078952295075815800, 386260638428299370449450, 386270759518823480607500, 386341155600140440365400,
  386420945771677492233700, 386461212654626287126500, 386470977884073459675000, 386510979365582038189200, 386541238891052733875700,
  386560564138268767750900, 386630646518963231729400, 386651137730961566027700, 386841469149562033280400, 386951238891052733875700,
  387060770400537333181200, 387121018063611381595200, 387281157798031112242800, 387380879022934114297000, 387450845904760378228000,
  387480845904760378228000, 387501094199154440243200, 387520849607034132738500, 387540631448445951642800, 387610993790542922643800,
  387990814184487809899200, 388161074025190175137500, 388191238891052733875700, 388291023714832407929400, 388761318741822355652900]

def emitB52_8 : List Nat := [
  388921318741822355652900, 389110796886582547735500, 389140911554651718648600, 389180871641455247534400, 389201050944547769159600,
  389241061395817642708300, 389280547472596059171600, 389291117995018150178200, 389300781008431669026800, 389310974985319772349800,
  389350953244032111827400, 389360776197884956915300, 389451267659259979053800, 389481261205407865296700, 389570958252442551568400,
  389671125750841584765600, 389710983168321597113000, 389821469149562033280400, 389880946306438124893200, 390000726942082833042000,
  390030893101780200005600, 390060735781922467511900, 390150857229770671526800, 390190873695442732941900, 390230556448251094637400,
  390300911554651718648600, 390340871641455247534400, 390351050944547769159600, 390371117995018150178200, 390380857229770671526800,
  390390974985319772349800, 390410781008431669026800, 390421061395817642708300, 390440547472596059171600, 390460776197884956915300,
  390470953244032111827400, 390491267659259979053800, 390561261205407865296700, 390570983168321597113000, 390601125750841584765600,
  390631469149562033280400, 390640946306438124893200, 390720893101780200005600, 390760873695442732941900, 390800906207756096546500,
  391080836982844961720400, 391100913659992638431900, 391180906207756096546500, 391280836982844961720400, 391290913659992638431900,
  391310707128084975834800, 391340707128084975834800, 391350837976081117988900, 391381308205770789870200, 391441538464280089274700,
  391540836893038040552000, 391640881516138047845200, 391650904076236676641700, 391661113614755884338900, 391780788025124173151000,
  391870918413362685005700, 391920989570507473606200, 391981074991381266311300, 392081399834843977285800, 392210967090999538338000,
  392431162344268519918500, 392501004230854892793600, 392551538464280089274700, 392691308205770789870200, 392780836893038040552000,
  392791074991381266311300, 392801113614755884338900, 392810904076236676641700, 392820881516138047845200, 392861004230854892793600,
  392950918413362685005700, 393021399834843977285800, 393041162344268519918500, 393180795334312573684500, 393451137730961566027700,
  393470906747811414546400, 393480981629829713165000, 393610991658265975761700, 393760828132073836663600, 393810789802948775279300,
  393870908202382514784300, 394380850837818900198300, 394491021415880585459700, 394720931159826679234300, 394790900113616600874200,
  394930797369092530911150, 395110908202382514784300, 395140756862896173372100, 395151074991381266311300, 395190997747102943263000,
  395221399834843977285800, 395341137730961566027700, 395350981629829713165000, 395360906747811414546400, 395370797369092530911150,
  395390991658265975761700, 395401399834843977285800, 395420908202382514784300, 395470828132073836663600, 395500789802948775279300,
  395511074991381266311300, 395541000014773810365800, 395640908202382514784300, 395690850837818900198300, 395751021415880585459700,
  395780900113616600874200, 395880997747102943263000, 395920957350180791604700, 396360688744825598320100, 396400669047565900915100,
  397170993360434732704800, 397190888035462735610200, 397211469149562033280400, 397291090730598641454200, 397401180112386243663800,
  397701234012036316932500, 398541042179817063284000, 399121216576697602454800, 399551220658897054480200, 400231469149562033280400,
  400601234012036316932500, 400921042179817063284000, 401201216576697602454800, 401311220658897054480200, 401581469149562033280400,
  401651018063611381595200, 401671359288333166469300, 401801005192400762738000, 404791018063611381595200, 404811078952295075815800,
  404831005192400762738000, 405651089600643116060800, 405721201734697090627400, 405731162344268519918500, 406131205243829071754500,
  406141205243829071754500, 406350896464787274560500, 406431212654626287126500, 406441212654626287126500, 406551220658897054480200,
  406640938819071227372800, 406681399834843977285800, 406700670635168913418200, 406811318741822355652900, 406921137730961566027700,
  406951318741822355652900, 407011428603051222463800, 407021428603051222463800, 407181073068245073522500, 407230731123983190634250,
  407361308205770789870200, 407631086285422384370800, 407661343873265183743500, 407780900621661724116200, 407791068416243510033100,
  407840900621661724116200, 408601149282250278212200, 408631149282250278212200]

def emitB53_0 : List Nat := [
  200050860666819784384000, 204980791352101728389500, 205990722037383672394900, 208820640944362050762100, 215160258929226895135700,
  221960860666819784384000, 223620589861799674163000, 225330589861799674163000, 234510666075804878852650, 244480472510439990040250,
  253450013751045546615960, 294090566222921867740000, 332580860666819784384000, 362290690192010560541500, 362750860666819784384000,
  368700367219426471314850, 382810491778874372990400, 383810491778874372990400]

def emitB55_0 : List Nat := [
  315610000000000000000000]

def emitB56_0 : List Nat := [
  199680698276236255252100, 199771073487740602361200, 199780789514938094620200, 199790832693179737174000, 199810848358560741711700,
  199870651782368980907200, 199900758976773139502000, 199960973342886580915000, 200041183348969469172100, 200051362524916391977600,
  200060821360311206473700, 200101058072672619635300, 200130789840141633258000, 200161106029980645824000, 200180959989747318462800,
  200200675312106258079050, 200270612195953324469400, 200301106029980645824000, 200411362524916391977600, 200561183348969469172100,
  200621252663687525166700, 200800904028168524920500, 201050609155545407114400, 201110596231131345824100, 201141040637333905157600,
  201161062951689036578500, 201320547825046652978400, 201350664796782228902900, 201370959989747318462800, 201391106029980645824000,
  201461362524916391977600, 201540930776105038346600, 201671154580762223994100, 201740946636608056010500, 201790929451582363344500,
  201820925580131145275500, 201841132266407092573000, 201950638030761758276900, 202021293210198335983000, 202081114034251413177600,
  202100842124247684298000, 202190981858667414945600, 202231004173022546366700, 202251167933901486446200, 202391252663687525166700,
  202401167933901486446200, 202410791151635841040700, 202480570552940299520200, 202500808398561876135000, 202560546931282594738300,
  202600721179020675241900, 202721252663687525166700, 202761154580762223994100, 202801122735389112140700, 202820946636608056010500,
  203031183348969469172100, 203041091719896281756700, 203070748752210983354250, 203081132266407092573000, 203131293210198335983000,
  203161001433125127555200, 203581293210198335983000, 203630903012931378518700, 203790512968827263065300, 203811029304465374457300,
  203901009888863930361500, 203910954771172001405700, 204050672855483229706400, 204150973342886580915000, 204190762383428595862600,
  204450641516953574898900, 204490796576694816015500, 204620783835178255306900, 204890929451582363344500, 204911058072672619635300,
  204981091719896281756700, 205051223895480279988700, 205110862130285797431700, 205400801944709762377900, 205421062951689036578500,
  205510881306480854736000, 205591053420671056146100, 205720953090460169767600, 205810824535181037931700, 205960954771172001405700,
  205971009888863930361500, 205981362524916391977600, 205990993636970980584000, 206071036715262589829400, 206330832693179737174000,
  206480564146809494232600, 206520871259427818372400, 206590546931282594738300, 206630721179020675241900, 206701062951689036578500,
  207210924322252924589400, 207251073487740602361200, 207361293210198335983000, 207671036715262589829400, 207780570552940299520200,
  207860564146809494232600, 208051142802458658355700, 208071293210198335983000, 208090942055654452881000, 208111167933901486446200,
  208121106029980645824000, 208130733553359301077900, 208171106029980645824000, 208370933478972277138500, 208390945086189402414000,
  208400804175285513807700, 208411183348969469172100, 208440794166939658109500, 208490943559442189335000, 208510662309320951615450,
  208531223895480279988700, 208561142802458658355700, 208590641738929248730100, 208601053420671056146100, 208690945086189402414000,
  208771252663687525166700, 208820996168751779013000, 208890971322615849163100, 208911106029980645824000, 208961362524916391977600,
  209011032941229791544700, 209081201581125148567600, 209140534099736629785900, 209150824075410113068700, 209181073487740602361200,
  209190778170474688841600, 209340923080000924733700, 209371293210198335983000, 209401085266044167999600, 209430597033211607145550,
  209571223895480279988700, 209821293210198335983000, 209841201581125148567600, 209851114034251413177600, 209860468632389193150300,
  209871085266044167999600, 209891079203581986356000, 209931293210198335983000, 209980378422229272625400, 209990878106207746118500,
  210101201581125148567600, 210150814878561198826600, 210190541702978042294300, 210210919443236507646200, 210241223895480279988700,
  210280695448284307390200, 210331362524916391977600, 210341223895480279988700, 210381058072672619635300, 210400644289705203451400,
  210460637816857933401950, 210501362524916391977600, 210511098619183430451900, 210590887165897281341200, 210781044719533357183000,
  210851098619183430451900, 210931098619183430451900, 210951073487740602361200, 210970831204318487799000, 210980833194433919528300,
  211060986404904822621400, 211090541702978042294300, 211171362524916391977600, 211191252663687525166700, 211231201581125148567600,
  211271073487740602361200, 211281293210198335983000, 211490827339103044371000, 211500701859897772156100, 211511032941229791544700,
  211520519798068003152600, 211601019126195943463000, 211610788867686644058400, 211631022405178225762200, 211710451993602981130000,
  211870846619386470524700, 212051019126195943463000, 212080714981644721568600, 212130560959154936243700, 212140451993602981130000,
  212150973342886580915000, 212400827339103044371000, 212530737914239843821400, 212700954771172001405700, 212950704322402502695100,
  213050975404815301188500, 213061019126195943463000, 213070893390128169063200, 213111114034251413177600, 213121019126195943463000,
  213190624624103629147150, 213221362524916391977600, 213270773914513246962100, 213320773914513246962100, 213340979660776743068000,
  213350754990313283109200, 213380856900335857146800, 213441132266407092573000, 213511252663687525166700, 213600743493375806662900,
  213671293210198335983000, 213870748968427283803800, 213880991167709721546900, 214000996168751779013000, 214070909264967076652100,
  214210991167709721546900, 214221122735389112140700, 214391167933901486446200, 214420837822509175929000, 214430837822509175929000,
  214530481523711594660600, 214570275049039118403000, 214620884612567080824700, 214630911438965740292600, 214640381201460036121050,
  214650946636608056010500, 214670996168751779013000, 214721040637333905157600, 214750810378824605753000, 214831058072672619635300,
  214841025795333393330300, 214870810378824605753000, 215101223895480279988700, 215120476930062986775700, 215141122735389112140700,
  215160784450564812744700, 215180692574882375809900, 215211252663687525166700, 215340899052017569014000, 215351223895480279988700,
  215450945086189402414000, 215470893390128169063200, 215481068081018475333500, 215510750275635440539000, 215571085266044167999600,
  215581029304465374457300, 215600904028168524920500, 215610940574145874367000, 215641293210198335983000, 215781201581125148567600,
  215841029304465374457300, 215891022405178225762200, 216021362524916391977600, 216080768507791119934500, 216210914791234944157000,
  216280928144374206609300, 216291201581125148567600, 216440762136209681323700, 216501079203581986356000, 216720608995246147568800,
  216761025795333393330300, 216961036715262589829400, 216971098619183430451900, 217000929451582363344500, 217411085266044167999600,
  217541223895480279988700, 217921122735389112140700, 218060967400544533834900, 218091223895480279988700, 218300855634496169954400,
  218390825927314889792500, 218550750275635440539000, 218841068081018475333500, 218901009888863930361500, 218981032941229791544700,
  219121019126195943463000, 219161252663687525166700, 219170919443236507646200, 219270942055654452881000, 219430925580131145275500,
  220251029304465374457300, 220361022405178225762200, 220390876543675955810500, 220621122735389112140700, 220650969342353119545100,
  220661040637333905157600, 221201142802458658355700, 221320925580131145275500, 221961362524916391977600, 222250969342353119545100,
  222341201581125148567600, 222380621490206609875200, 222401223895480279988700, 222421252663687525166700, 222531362524916391977600,
  222600996168751779013000, 222661183348969469172100, 222690553883888859599300, 222701142802458658355700, 222800967400544533834900,
  222830553883888859599300, 222850996168751779013000, 222901362524916391977600, 222941142802458658355700, 222961252663687525166700,
  223031252663687525166700, 223120730628105017334200, 223201362524916391977600, 223431029304465374457300, 223521068081018475333500,
  223681362524916391977600, 224380854384479893531300, 224751122735389112140700, 225190642706558681783300, 225210651373704742362000,
  225340886307522912202000, 225770721507428195360900, 225811252663687525166700, 226041223895480279988700, 226151362524916391977600,
  226351201581125148567600, 226841362524916391977600, 226860862803689015566100, 227180854384479893531300, 227390748968427283803800,
  227681142802458658355700, 227811362524916391977600, 227880666111355150153200, 227910832693179737174000, 227970712395949337938700,
  228060834713450468926000, 228100747251646921567200, 228121252663687525166700, 228230718909879555034900, 228330640560712378904100,
  228401293210198335983000, 228411114034251413177600, 228421223895480279988700, 228461114034251413177600, 228551252663687525166700,
  228571058072672619635300, 228591293210198335983000, 228651167933901486446200, 228681098619183430451900, 228700740864306283491100,
  228711058072672619635300, 228821079203581986356000, 228901223895480279988700, 228941293210198335983000, 229001006990110243036300,
  229161098619183430451900, 229220996168751779013000, 229301362524916391977600, 229960836255897501489000, 230410606412757438953900,
  230670691350876886359600, 230890691350876886359600, 230940936256928687846100, 231300905053818541639300, 232541167933901486446200,
  233051293210198335983000, 233191223895480279988700, 233840738108226325604000, 233891201581125148567600, 233951252663687525166700,
  233981167933901486446200, 234131058072672619635300, 234161167933901486446200, 234321073487740602361200, 234331062951689036578500,
  234361223895480279988700, 234481252663687525166700, 234500559809905708700100, 234540541295202569000800, 234570634731059097411500,
  234590597698613301785600, 234811183348969469172100, 234850963626511735550100, 234920815297849024830200, 234940998766300419339000,
  235000954771172001405700, 235191293210198335983000, 235260541295202569000800, 235290634731059097411500, 235310971322615849163100,
  235320963626511735550100, 235450542386320868116800, 235471073487740602361200, 235480906090097245194000, 235511362524916391977600,
  235530882945861832303600, 235560638102164831642700, 235600651782368980907200, 235621132266407092573000, 235631073487740602361200,
  235650542386320868116800, 235660906090097245194000, 235671132266407092573000, 235741252663687525166700, 235810876543675955810500,
  236011154580762223994100, 236210910346058687073500, 236370784142398159003900, 236461201581125148567600, 236480790493738731236500]

def emitB56_1 : List Nat := [
  236531048975494799062600, 236601201581125148567600, 236631183348969469172100, 238491132266407092573000, 238841223895480279988700,
  240330851326137556323400, 240370354282076274917120, 240391252663687525166700, 240400981858667414945600, 240460988757954563640800,
  240501085266044167999600, 240671114034251413177600, 240721201581125148567600, 240761114034251413177600, 241021154580762223994100,
  241071201581125148567600, 241101183348969469172100, 241181154580762223994100, 241200827339103044371000, 241711183348969469172100,
  241780883775742113773000, 241790823162161756741500, 241820821360311206473700, 241850883775742113773000, 241891091719896281756700,
  241910671949588760831200, 241981132266407092573000, 242120491495934254162600, 242230967400544533834900, 242301001433125127555200,
  242470996168751779013000, 242751293210198335983000, 242851122735389112140700, 242900967400544533834900, 242910671949588760831200,
  243101183348969469172100, 243140420659465487538500, 243200719230907118059700, 243221062951689036578500, 243411004173022546366700,
  243750690744446889608500, 243770902007897793168600, 243780690744446889608500, 243920902007897793168600, 244020700384351215564100,
  244030874244724133340500, 244051079203581986356000, 244330348400534770159300, 244431201581125148567600, 244480668502669480013800,
  244490744523251026720350, 244530954771172001405700, 244600692574882375809900, 244711362524916391977600, 244780946636608056010500,
  244811223895480279988700, 244900585671586299374300, 244940641443071044755600, 245010744523251026720350, 245051201581125148567600,
  245151029304465374457300, 245170891571896260744300, 245181106029980645824000, 245241048975494799062600, 245251362524916391977600,
  245271098619183430451900, 245510785692816812600500, 245550956480615337335700, 245761009888863930361500, 245941183348969469172100,
  246041058072672619635300, 246050958219789608522600, 246130923080000924733700, 246150855634496169954400, 246161044719533357183000,
  246351293210198335983000, 246771201581125148567600, 246810918259790742946000, 246830988757954563640800, 246851223895480279988700,
  247241201581125148567600, 247481293210198335983000, 247601106029980645824000, 247641142802458658355700, 247781025795333393330300,
  247961362524916391977600, 248081142802458658355700, 248090878106207746118500, 248151132266407092573000, 248191114034251413177600,
  248470885456453945411100, 248590932118407071560600, 248630828291491195496500, 248680951437529974646500, 249201142802458658355700,
  249311132266407092573000, 249361223895480279988700, 249441132266407092573000, 249501132266407092573000, 249620785692816812600500,
  249761058072672619635300, 249960951437529974646500, 250141106029980645824000, 250330491495934254162600, 250340943559442189335000,
  250740878106207746118500, 250791009888863930361500, 250801293210198335983000, 250821098619183430451900, 251031293210198335983000,
  251040728136872979344600, 251061085266044167999600, 251091167933901486446200, 251120547680349767654000, 251300953090460169767600,
  251360547680349767654000, 251381293210198335983000, 251511223895480279988700, 251660919443236507646200, 251701362524916391977600,
  251710825461113579211400, 251760951437529974646500, 251871201581125148567600, 251910642706558681783300, 251930846619386470524700,
  251950958219789608522600, 251961114034251413177600, 251991362524916391977600, 252000814878561198826600, 252060898085826477840300,
  252090706421849802320350, 252121252663687525166700, 252150764383495266529600, 252201252663687525166700, 252250945086189402414000,
  252331091719896281756700, 252340945086189402414000, 252351362524916391977600, 252370305208778700934500, 252381132266407092573000,
  252390610122774871365200, 252400826866288924776400, 252420991167709721546900, 252430926854033723018500, 252501362524916391977600,
  252520831204318487799000, 252530721507428195360900, 252690624874103759355700, 252761362524916391977600, 252770954771172001405700,
  252850632275274019245100, 252860958219789608522600, 252891252663687525166700, 252910926854033723018500, 252921114034251413177600,
  253001106029980645824000, 253020996168751779013000, 253041142802458658355700, 253070705717125250780100, 253111362524916391977600,
  253171091719896281756700, 253181293210198335983000, 253211091719896281756700, 253351098619183430451900, 253401085266044167999600,
  253510579283823673185700, 253530843786335807902000, 253610621550720983885300, 253771201581125148567600, 253800961791597868730500,
  253811293210198335983000, 253910791813889917090000, 254171142802458658355700, 254291032941229791544700, 254390889786134520743500,
  254420862130285797431700, 254471183348969469172100, 254750958219789608522600, 254800959989747318462800, 254840971322615849163100,
  254900738692453888026900, 255041091719896281756700, 255050597555654020826200, 255060714673952171120700, 255071293210198335983000,
  255090838880720108982700, 255110729019491242171700, 255120746193435988513500, 255130871259427818372400, 255140963626511735550100,
  255511252663687525166700, 255520760909200422142300, 255541053420671056146100, 255621114034251413177600, 255630862130285797431700,
  255821293210198335983000, 255880660505845560785150, 256051201581125148567600, 256130889786134520743500, 256151036715262589829400,
  256221114034251413177600, 256280780813800395657200, 256440977510156220971800, 256451032941229791544700, 256541362524916391977600,
  256681293210198335983000, 256701142802458658355700, 256711114034251413177600, 256841122735389112140700, 256880998766300419339000,
  257031040637333905157600, 257050757315999499535900, 257581004173022546366700, 257640892476879812736000, 257710991167709721546900,
  257731053420671056146100, 257741114034251413177600, 257931091719896281756700, 257991091719896281756700, 258021085266044167999600,
  258031201581125148567600, 258051362524916391977600, 258120632275274019245100, 258240961791597868730500, 258361362524916391977600,
  258440846619386470524700, 258501142802458658355700, 258540814878561198826600, 258561183348969469172100, 258761293210198335983000,
  258851293210198335983000, 258981201581125148567600, 259030572276172675692150, 259100645666926665574100, 259130436630912210753100,
  259150734860567457813200, 259180842124247684298000, 259191142802458658355700, 259370637390418054756200, 259431223895480279988700,
  259440946636608056010500, 259450480366428648881100, 259550991167709721546900, 259581223895480279988700, 259641015951326112005000,
  259680863481657714104000, 259720630273872992238300, 259751252663687525166700, 259760863481657714104000, 259911252663687525166700,
  260070538618383215050800, 260171091719896281756700, 260231252663687525166700, 260290991167709721546900, 260320856265413089281000,
  260390991167709721546900, 260450634180093516314500, 260491362524916391977600, 260530570226320520858100, 260800893390128169063200,
  260851293210198335983000, 260891223895480279988700, 260970940574145874367000, 261260923080000924733700, 261270919443236507646200,
  261311085266044167999600, 261491053420671056146100, 261851154580762223994100, 261871154580762223994100, 262220806072875659708300,
  262341154580762223994100, 262421362524916391977600, 262630887165897281341200, 262741201581125148567600, 262831362524916391977600,
  262920846619386470524700, 263560914791234944157000, 263671044719533357183000, 263710808398561876135000, 263770427924218052206000,
  263810454946928533928800, 263911183348969469172100, 263971154580762223994100, 263991025795333393330300, 264101006990110243036300,
  264260779630354630956900, 264320864851542149920100, 264340803426218340892000, 264491114034251413177600, 264630853149896311301400,
  264691293210198335983000, 264810973342886580915000, 264970842675213265395000, 265000840489333884145200, 265380946636608056010500,
  265500924322252924589400, 265791053420671056146100, 265971025795333393330300, 266310793827380757995600, 266571009888863930361500,
  266661022405178225762200, 266800777881038886205200, 266811293210198335983000, 266850661855393708273600, 268001252663687525166700,
  268031362524916391977600, 268160494798002465690400, 268931154580762223994100, 269970842675213265395000, 270481183348969469172100,
  270830840489333884145200, 270850946636608056010500, 271610793827380757995600, 271691053420671056146100, 272310779630354630956900,
  272980494798002465690400, 274241223895480279988700, 274261091719896281756700, 274500843229231302956500, 274541183348969469172100,
  274650991167709721546900, 274891091719896281756700, 274900899052017569014000, 274910809185967519225500, 274941154580762223994100,
  274951040637333905157600, 274981293210198335983000, 275120700384351215564100, 275151073487740602361200, 275310910346058687073500,
  275420842675213265395000, 275440910346058687073500, 275531223895480279988700, 275671223895480279988700, 275780864851542149920100,
  275841154580762223994100, 275851154580762223994100, 276021252663687525166700, 276040583828216130490500, 276071223895480279988700,
  276651073487740602361200, 276681098619183430451900, 276831098619183430451900, 276871025795333393330300, 277001036715262589829400,
  277041362524916391977600, 277140904028168524920500, 277190704322402502695100, 277450618041589002758300, 277700824075410113068700,
  277840859481124252734000, 277850859481124252734000, 277941142802458658355700, 278011167933901486446200, 278091142802458658355700,
  278121142802458658355700, 278141201581125148567600, 278271252663687525166700, 278331223895480279988700, 278350930776105038346600,
  278441040637333905157600, 278611044719533357183000, 278671293210198335983000, 278740549932236121189000, 278801293210198335983000,
  279270998766300419339000, 279341167933901486446200, 279451040637333905157600, 279630403798034197761800, 279651183348969469172100,
  279690452639916797695600, 279731167933901486446200, 279790536501487231247950, 279831053420671056146100, 279871040637333905157600,
  280091167933901486446200, 280140779043842685717100, 280201293210198335983000, 280230791482214654490700, 280241062951689036578500,
  280341362524916391977600, 280400439608703770300600, 280410824535181037931700, 280700869799547876257200, 280720988757954563640800,
  280820815297849024830200, 280921293210198335983000, 281070981858667414945600, 281291362524916391977600, 281381201581125148567600,
  281391201581125148567600, 281400906090097245194000, 281510616360877171120200, 281541167933901486446200, 281551012874160245329600,
  281650697367729033004900, 281741036715262589829400, 281831252663687525166700, 281870597033211607145550, 282040536501487231247950]

def emitB56_2 : List Nat := [
  282121362524916391977600, 282160653934769955416500, 283100923080000924733700, 283631085266044167999600, 283690818283145339798200,
  283781036715262589829400, 283821167933901486446200, 283891362524916391977600, 283991167933901486446200, 284021252663687525166700,
  284041223895480279988700, 284141036715262589829400, 284181167933901486446200, 284311098619183430451900, 284360694188821815350200,
  284421142802458658355700, 284481293210198335983000, 284590878896725696829900, 284660988757954563640800, 285070936256928687846100,
  285080936256928687846100, 285160869799547876257200, 285261142802458658355700, 286081019126195943463000, 286111040637333905157600,
  286260981858667414945600, 286511362524916391977600, 286781036715262589829400, 286871053420671056146100, 286930981858667414945600,
  287480640341333863132800, 287791293210198335983000, 287891252663687525166700, 288180948211443752824400, 288461167933901486446200,
  288571223895480279988700, 288600775878110698648000, 288881293210198335983000, 288911362524916391977600, 289021201581125148567600,
  289030967400544533834900, 289090902007897793168600, 289210914791234944157000, 289381098619183430451900, 289541362524916391977600,
  289610893390128169063200, 289660969342353119545100, 290010775878110698648000, 290060986404904822621400, 290311001433125127555200,
  290331201581125148567600, 290531223895480279988700, 290601223895480279988700, 290710876543675955810500, 290761167933901486446200,
  291050902007897793168600, 291380967400544533834900, 291510541458113275679900, 291651362524916391977600, 291900832693179737174000,
  292281293210198335983000, 292290609155545407114400, 292330932118407071560600, 292451091719896281756700, 292731025795333393330300,
  292871154580762223994100, 292891098619183430451900, 293010814878561198826600, 293050975404815301188500, 293090814878561198826600,
  293590605893814914731300, 293781098619183430451900, 294200808791489690123900, 294541252663687525166700, 294671073487740602361200,
  294680726567529524739900, 295180740864306283491100, 295440808791489690123900, 295540805690466015868000, 295571252663687525166700,
  296091293210198335983000, 296160625564844339336700, 296271362524916391977600, 296451223895480279988700, 296940625564844339336700,
  297020998766300419339000, 299561362524916391977600, 299830299310250982234340, 299860664796782228902900, 299920742069140135108600,
  299931362524916391977600, 300001362524916391977600, 300031001433125127555200, 300050654186131629448100, 300211201581125148567600,
  300410991167709721546900, 300450959989747318462800, 300641062951689036578500, 300700874244724133340500, 300901040637333905157600,
  300950890675029262468200, 301401362524916391977600, 301490977510156220971800, 301530809185967519225500, 301690809185967519225500,
  301711201581125148567600, 301961142802458658355700, 303310783835178255306900, 303320275049039118403000, 303331362524916391977600,
  304161079203581986356000, 304170449742121351805800, 304230864851542149920100, 304240912543949358951000, 304280864851542149920100,
  304350449742121351805800, 304360912543949358951000, 304461362524916391977600, 304501223895480279988700, 304520855634496169954400,
  304561062951689036578500, 304651106029980645824000, 304750921852991665552300, 305191091719896281756700, 305281167933901486446200,
  305610942055654452881000, 305630933478972277138500, 306511362524916391977600, 306930933478972277138500, 306990986404904822621400,
  307011252663687525166700, 307030986404904822621400, 307331142802458658355700, 307400353002617122911880, 307571091719896281756700,
  307720908195438164977300, 308281085266044167999600, 308960795882247580734400, 309100958219789608522600, 309131032941229791544700,
  309171167933901486446200, 309230825927314889792500, 309520929451582363344500, 309670988757954563640800, 310340738692453888026900,
  310380660863948002555700, 310620914791234944157000, 310690843229231302956500, 310701098619183430451900, 310851114034251413177600,
  310951183348969469172100, 311050908195438164977300, 311421223895480279988700, 311531183348969469172100, 311630794849536165149500,
  311690804175285513807700, 312150923080000924733700, 312161223895480279988700, 312270586520848303939700, 312321040637333905157600,
  312811223895480279988700, 312931142802458658355700, 313090923080000924733700, 313540933478972277138500, 313591068081018475333500,
  313610519122021376430800, 313631293210198335983000, 314341293210198335983000, 314350645589914724917700, 314540521564118318347600,
  314780521564118318347600, 315081201581125148567600, 315261132266407092573000, 315581201581125148567600, 315610908195438164977300,
  315690979660776743068000, 315720766424382429650300, 315740843229231302956500, 315790903012931378518700, 316091015951326112005000,
  316141068081018475333500, 316161252663687525166700, 316391154580762223994100, 316490382617812830407630, 316800734860567457813200,
  316890979660776743068000, 317210903012931378518700, 317771252663687525166700, 318051068081018475333500, 318201015951326112005000,
  318811293210198335983000, 318960936256928687846100, 319341106029980645824000, 319461362524916391977600, 319641223895480279988700,
  319671362524916391977600, 319951293210198335983000, 319981183348969469172100, 320040609423283184186000, 320051223895480279988700,
  320331079203581986356000, 320341142802458658355700, 320390700251283996993700, 320470898085826477840300, 320480951437529974646500,
  320681183348969469172100, 320800637319521206696200, 320850977510156220971800, 321021073487740602361200, 321130486951162461330600,
  321291223895480279988700, 321470471587875872231000, 321560501602388705704500, 321600791813889917090000, 321730700384351215564100,
  322020700251283996993700, 322161293210198335983000, 322211167933901486446200, 322241362524916391977600, 322321053420671056146100,
  322330979660776743068000, 322441073487740602361200, 322911167933901486446200, 322991362524916391977600, 323020961791597868730500,
  323171293210198335983000, 323211122735389112140700, 323251201581125148567600, 323401025795333393330300, 323501223895480279988700,
  323531362524916391977600, 323621183348969469172100, 323711114034251413177600, 323800848945072686951500, 323960926854033723018500,
  324161183348969469172100, 324181223895480279988700, 324220609423283184186000, 324421079203581986356000, 324511073487740602361200,
  324521183348969469172100, 324540951437529974646500, 324551025795333393330300, 324630471587875872231000, 324651223895480279988700,
  324670637319521206696200, 324691223895480279988700, 324721183348969469172100, 324731073487740602361200, 324770977510156220971800,
  324790486951162461330600, 324831362524916391977600, 324870848945072686951500, 324930926854033723018500, 325000700384351215564100,
  325080501602388705704500, 325110791813889917090000, 325161293210198335983000, 325211167933901486446200, 325310979660776743068000,
  325321362524916391977600, 325341053420671056146100, 325411362524916391977600, 325530961791597868730500, 325551201581125148567600,
  325641114034251413177600, 325700879693542661747500, 325991293210198335983000, 326021362524916391977600, 326101073487740602361200,
  326220993636970980584000, 326241362524916391977600, 326311073487740602361200, 326411091719896281756700, 326451293210198335983000,
  326481091719896281756700, 326540866942210631851600, 326701201581125148567600, 326761114034251413177600, 326811362524916391977600,
  327531154580762223994100, 327631036715262589829400, 327691098619183430451900, 327710532050689427900550, 327841183348969469172100,
  327890747039106990335900, 328060853765282868739200, 328190913661279418763600, 328271201581125148567600, 328441068081018475333500,
  328520759456390365851300, 328580905053818541639300, 328790759456390365851300, 328821142802458658355700, 328871068081018475333500,
  328931068081018475333500, 328990965495725036765500, 329010965495725036765500, 329021223895480279988700, 329030903012931378518700,
  329331032941229791544700, 329460853765282868739200, 329591154580762223994100, 329721022405178225762200, 329880560959154936243700,
  329931183348969469172100, 330141114034251413177600, 330161098619183430451900, 330670848945072686951500, 330730848945072686951500,
  331311154580762223994100, 331451167933901486446200, 331841114034251413177600, 332221223895480279988700, 332531252663687525166700,
  332560675312106258079050, 332580584913368682103400, 332680858829656150614800, 332891106029980645824000, 332921362524916391977600,
  332980878896725696829900, 333100919443236507646200, 333220846046318999626300, 333370921852991665552300, 333951223895480279988700,
  333991223895480279988700, 334100734860567457813200, 334991293210198335983000, 336090939114265932251700, 336181223895480279988700,
  337190805690466015868000, 338041293210198335983000, 338290541458113275679900, 338530917090186766626800, 338791167933901486446200,
  339451012874160245329600, 339761025795333393330300, 339881091719896281756700, 340651183348969469172100, 342551183348969469172100,
  343890666111355150153200, 343940993636970980584000, 343950993636970980584000, 344070596231131345824100, 345061167933901486446200,
  345211022405178225762200, 345930988757954563640800, 347010500802965843641400, 348470988757954563640800, 348651167933901486446200,
  348920509435032544742700, 348930738887957371607200, 349031142802458658355700, 349090534099736629785900, 349170598512599122441300,
  349200598801477513030400, 349280866942210631851600, 349870847775468710632300, 350090828291491195496500, 350100975404815301188500,
  350130815718902278464600, 350360598512599122441300, 350370815718902278464600, 350641293210198335983000, 350901201581125148567600,
  352011183348969469172100, 352061114034251413177600, 352111362524916391977600, 352150853149896311301400, 352221362524916391977600,
  352421362524916391977600, 352581004173022546366700, 352640635842181639918550, 352651362524916391977600, 352660635842181639918550,
  352680853149896311301400, 352701362524916391977600, 352731004173022546366700, 352821132266407092573000, 352990770904710131234200,
  353021154580762223994100, 353201154580762223994100, 353300853765282868739200, 353360794166939658109500, 353381293210198335983000,
  353420998766300419339000, 353470591638956287260150, 353520963626511735550100, 353551223895480279988700, 353631362524916391977600,
  353700901012864707851700, 353730467044641106880750, 353800621853843374213600, 353861001433125127555200, 354080863481657714104000,
  354130569756411830399840, 354300564146809494232600, 354371293210198335983000, 354401252663687525166700, 354631293210198335983000]

def emitB56_3 : List Nat := [
  354690659616159977011400, 354800771988731586520600, 354911106029980645824000, 354921004173022546366700, 354931073487740602361200,
  354981044719533357183000, 355131362524916391977600, 355190354688436147893030, 355270541621289814470500, 355311044719533357183000,
  355420690986577758509600, 355660608995246147568800, 355750851326137556323400, 355841167933901486446200, 356111029304465374457300,
  356161252663687525166700, 356461223895480279988700, 356631048975494799062600, 356721032941229791544700, 356860715755043781542300,
  356960969342353119545100, 357030831204318487799000, 357220381201460036121050, 357310934858304490372100, 357450794166939658109500,
  357460853765282868739200, 357480659616159977011400, 357491048975494799062600, 357520998766300419339000, 357530934858304490372100,
  357570591638956287260150, 357580969342353119545100, 357591293210198335983000, 357600963626511735550100, 357621029304465374457300,
  357691223895480279988700, 357700690986577758509600, 357730851326137556323400, 357740467044641106880750, 357750901012864707851700,
  357761362524916391977600, 357800569756411830399840, 357821032941229791544700, 357840863481657714104000, 357850621853843374213600,
  357861001433125127555200, 357970564146809494232600, 358001252663687525166700, 358091293210198335983000, 358201106029980645824000,
  358231004173022546366700, 358241073487740602361200, 358250771988731586520600, 358281044719533357183000, 358311044719533357183000,
  358371362524916391977600, 358430354688436147893030, 358480541621289814470500, 358511167933901486446200, 358751252663687525166700,
  358811223895480279988700, 359201106029980645824000, 360000714981644721568600, 360070797980226627653900, 360080946636608056010500,
  360091019126195943463000, 360121009888863930361500, 360150963626511735550100, 360201154580762223994100, 360221025795333393330300,
  360230904028168524920500, 360280789514938094620200, 360310459284000043625500, 360320921852991665552300, 360361252663687525166700,
  360390864164254221144000, 360491025795333393330300, 360601036715262589829400, 360621098619183430451900, 360641252663687525166700,
  360670979660776743068000, 360741019126195943463000, 360771142802458658355700, 360920703494811572309100, 360931122735389112140700,
  361041293210198335983000, 361060919443236507646200, 361091167933901486446200, 361180741665913782314800, 361270714981644721568600,
  361311009888863930361500, 361331223895480279988700, 361350946636608056010500, 361361019126195943463000, 361371019126195943463000,
  361390797980226627653900, 361401025795333393330300, 361410703494811572309100, 361420963626511735550100, 361480789514938094620200,
  361491154580762223994100, 361520459284000043625500, 361540921852991665552300, 361591252663687525166700, 361640864164254221144000,
  361681025795333393330300, 361721142802458658355700, 361740741665913782314800, 361751098619183430451900, 361761036715262589829400,
  361801252663687525166700, 361871122735389112140700, 361900919443236507646200, 361921293210198335983000, 361931167933901486446200,
  361981362524916391977600, 362080802313034304007500, 362150711946510379154800, 362291044719533357183000, 362340858182404700052900,
  362351183348969469172100, 362641183348969469172100, 362911293210198335983000, 362991167933901486446200, 363001201581125148567600,
  363051252663687525166700, 363191142802458658355700, 363280749619895385923100, 363301293210198335983000, 363390752717488175353600,
  363411252663687525166700, 363671058072672619635300, 363681252663687525166700, 364181079203581986356000, 364341362524916391977600,
  364511362524916391977600, 364811167933901486446200, 364931293210198335983000, 365571106029980645824000, 366111032941229791544700,
  366170898085826477840300, 366280657425971685173100, 366290948211443752824400, 366500901012864707851700, 366551362524916391977600,
  366640795192589674828400, 366810626514519093062500, 367031009888863930361500, 367160626514519093062500, 367180901012864707851700,
  367201009888863930361500, 367310948211443752824400, 367330898085826477840300, 367391032941229791544700, 367410657425971685173100,
  367531362524916391977600, 367550795192589674828400, 367740701859897772156100, 367761048975494799062600, 367770831204318487799000,
  367830831204318487799000, 367851142802458658355700, 368010929451582363344500, 368021036715262589829400, 368070742271364673185400,
  368140851326137556323400, 368160425058149852191750, 368171122735389112140700, 368201201581125148567600, 368240993636970980584000,
  368270433148718380452100, 368281252663687525166700, 368290581530207744298600, 368300723165840996914400, 368431106029980645824000,
  368451044719533357183000, 368551154580762223994100, 368611015951326112005000, 368640812399095337505000, 368651019126195943463000,
  368661223895480279988700, 368671293210198335983000, 368701040637333905157600, 368730902007897793168600, 368791036715262589829400,
  368820933478972277138500, 368900533270064994401600, 368950967400544533834900, 368960675001707664319900, 368990723165840996914400,
  369130768507791119934500, 369140433148718380452100, 369241114034251413177600, 369351362524916391977600, 369380653934769955416500,
  369390425058149852191750, 369420742271364673185400, 369441098619183430451900, 369490581530207744298600, 369510634938456337324400,
  369530833194433919528300, 369580933478972277138500, 369601252663687525166700, 369650833194433919528300, 369691223895480279988700,
  369741114034251413177600, 369811362524916391977600, 369830929451582363344500, 369840902007897793168600, 369860634938456337324400,
  369910906090097245194000, 369960993636970980584000, 370381085266044167999600, 370511223895480279988700, 370961362524916391977600,
  371091085266044167999600, 371171044719533357183000, 371451167933901486446200, 371681223895480279988700, 371970583042601174038700,
  372281201581125148567600, 372470719230907118059700, 372910893390128169063200, 373120719230907118059700, 373190597555654020826200,
  373220965495725036765500, 373230965495725036765500, 373250494203318867908700, 373261036715262589829400, 373271154580762223994100,
  373411362524916391977600, 374111252663687525166700, 374920687297878777803500, 375590457778072491623500, 376100991167709721546900,
  376361079203581986356000, 376791029304465374457300, 377231293210198335983000, 378060877321890000016000, 378601053420671056146100,
  379561004173022546366700, 379690687297878777803500, 380131079203581986356000, 380241362524916391977600, 380411252663687525166700,
  380751079203581986356000, 381361004173022546366700, 381380991167709721546900, 381440457778072491623500, 381691029304465374457300,
  382031293210198335983000, 382101053420671056146100, 382150877321890000016000, 382631201581125148567600, 382711201581125148567600,
  382811058072672619635300, 382830719230907118059700, 382901252663687525166700, 382911293210198335983000, 383210818716985499658100,
  383640662309320951615450, 383691252663687525166700, 383811058072672619635300, 383820825927314889792500, 383861252663687525166700,
  383881293210198335983000, 383931091719896281756700, 384050818716985499658100, 384161252663687525166700, 384500572276172675692150,
  384531009888863930361500, 384590889786134520743500, 384680708421916472987300, 384770823617743410327600, 384800909264967076652100,
  384991009888863930361500, 385000988757954563640800, 385060988757954563640800, 385181223895480279988700, 385341036715262589829400,
  385431001433125127555200, 385441142802458658355700, 385480746615377542784300, 385681001433125127555200, 385771142802458658355700,
  385980758499445264236300, 385990924322252924589400, 386131362524916391977600, 386200803426218340892000, 386260794849536165149500,
  386460626578152566415500, 386510654186131629448100, 386561079203581986356000, 386630640853967721031800, 386651252663687525166700,
  387281252663687525166700, 387450930776105038346600, 387480930776105038346600, 387500933478972277138500, 387610462094943535814100,
  388291167933901486446200, 389181142802458658355700, 389280410566094157725200, 389300879693542661747500, 389311252663687525166700,
  389360638173618925429500, 390030954771172001405700, 390191223895480279988700, 390341142802458658355700, 390391252663687525166700,
  390410879693542661747500, 390440410566094157725200, 390460638173618925429500, 390720954771172001405700, 390761223895480279988700,
  390801073487740602361200, 391081032941229791544700, 391181073487740602361200, 391281032941229791544700, 391310744938189381401550,
  391340744938189381401550, 391351362524916391977600, 391541114034251413177600, 391650878106207746118500, 391780641738929248730100,
  391921293210198335983000, 392211009888863930361500, 392431029304465374457300, 392781114034251413177600, 392810878106207746118500,
  393041029304465374457300, 393180856900335857146800, 393481122735389112140700, 393611079203581986356000, 393760819590353496533600,
  394791019126195943463000, 394930724343314651367800, 395110776731600943631700, 395141025795333393330300, 395191019126195943463000,
  395351122735389112140700, 395370724343314651367800, 395391079203581986356000, 395470819590353496533600, 395640776731600943631700,
  395781019126195943463000, 395881019126195943463000, 396360748752210983354250, 396401058072672619635300, 397170538618383215050800,
  397191091719896281756700, 401801012874160245329600, 404831012874160245329600, 405731079203581986356000, 406350921852991665552300,
  406641142802458658355700, 406701223895480279988700, 406921252663687525166700, 407231142802458658355700]

def emitB57_0 : List Nat := [
  209860122273068139649290, 214350034874232921302734]

def emitB60_0 : List Nat := [
  200630101012839308595600, 203580426191133595058500, 204150468572558272694600, 217100537887276328689200, 264690426191133595058500,
  305280468572558272694600, 326100134463212513449660, 326310134463212513449660, 327800108461536846574180, 338790468572558272694600]

def emitB62_0 : List Nat := [
  199780709769268894076260, 199810448858243569345600, 199970774828025508191200, 200040640454550838081700, 200050643769771569771800,
  200370609802034812755600, 200440577304249093207800, 200480711967159565953800, 200540759412957525465300, 200640763049721942552850,
  200810533908542702960800, 200980533908542702960800, 201050726277243930021100, 201170913457461620180300, 201420615564946096419250,
  201460728874792570347200, 201740872910950809363800, 201790703451378731923100, 201800770745826056165700, 202480386414245314330170,
  203020718866446714648900, 203070872910950809363800, 203580653188493075741850, 203810349089606561530670, 204260844142743564185800,
  204311023318690486991200, 204890703451378731923100, 205420821828388432764700, 205510779083986950070800, 205590803596232753369200,
  205721092633408542985800, 205810898042393637454400, 206330788181164770643400, 206670683198952320775700, 206700821828388432764700,
  207250714214445151159600, 207540705513307452196700, 207780386414245314330170, 208070913457461620180300, 208090552817138391210400,
  208391092633408542985800, 208410640454550838081700, 208520592912181166574300, 208691092633408542985800, 208820746059818263013150,
  209120470177565615449700, 209140609802034812755600, 209190533534710491900100, 209280755903825544338400, 209320640454550838081700,
  209370721276201872555000, 209450954003972430996700, 209550626289499131779100, 209560626289499131779100, 209570913457461620180300,
  209820913457461620180300, 209990809312074137364000, 210290852843881263148700, 210330872910950809363800, 210350852843881263148700,
  210380913457461620180300, 210470844142743564185800, 210500669222758083259800, 211870654430745075597550, 211930809312074137364000,
  212200815374536319007600, 212431092633408542985800, 212460884689254375002100, 212481092633408542985800, 212540385221726923249540,
  213060734281514697374800, 213120734281514697374800, 213130483728920998301200, 213220763049721942552850, 213310742982652396337700,
  214020527384490516120700, 214420697509036684843050, 214430697509036684843050, 214720783529163207154200, 214760872910950809363800,
  214870673667934340343160, 215080821828388432764700, 215470721276201872555000, 215740551916231396973900, 216170828727675581459900,
  216280714214445151159600, 216430884689254375002100, 216440793060181187586600, 216960783529163207154200, 217021092633408542985800,
  217040803596232753369200, 217090763049721942552850, 217130821828388432764700, 217190703451378731923100, 217370954003972430996700,
  217410669222758083259800, 217560872910950809363800, 217920779083986950070800, 218540821828388432764700, 219120734281514697374800,
  219160637245719382931700, 219430755903825544338400, 219950931689617299575800, 220160803596232753369200, 220240872910950809363800,
  220301092633408542985800, 220470766823754740837500, 220570703451378731923100, 220620779083986950070800, 220750693735003886558300,
  221320755903825544338400, 221960643769771569771800, 222090931689617299575800, 222420954003972430996700, 222780597050702782859700,
  222910597050702782859700, 222960954003972430996700, 223030884689254375002100, 223500913457461620180300, 223740852843881263148700,
  224020701431108000171100, 225300546250228040424700, 226960793060181187586600, 227910788181164770643400, 228100552817138391210400,
  228230438386212492305300, 228260884689254375002100, 228520872910950809363800, 228550954003972430996700, 228680641547457891300800,
  228690884689254375002100, 229090546674857128569900, 229140649551728658654400, 229340931689617299575800, 229490913457461620180300,
  230110763049721942552850, 230470746059818263013150, 230490815374536319007600, 231100703451378731923100, 231130862374899243581300,
  232670844142743564185800, 232730815374536319007600, 233080746059818263013150, 233960618140195706660740, 234330576727878621532850,
  234360737098602394044400, 234540540888118896515000, 234580716513396973629500, 234850739997356081369600, 234900654430745075597550,
  234940530593321971270700, 235250622585371963744100, 235260540888118896515000, 235320739997356081369600, 235670385306436797014700,
  235691092633408542985800, 236180699450845270553150, 236520699450845270553150, 236921092633408542985800, 237361092633408542985800,
  237810709769268894076260, 238420709769268894076260, 239190755903825544338400, 239610739997356081369600, 240130571139832782087200,
  240370844142743564185800, 240521023318690486991200, 241200954003972430996700, 241780515801308963608600, 241790521260127992048800,
  241800662226899222568800, 241850515801308963608600, 241890607430382151024100, 242480836138472796832100, 243200982772179676174900,
  243670635162310692647500, 243980635162310692647500, 244430746059818263013150, 244640844142743564185800, 244780872910950809363800,
  244940663587464428146700, 245050746059818263013150, 245370714214445151159600, 245550602105930699142800, 245730575018435285602900,
  245910688328281759530700, 245940766823754740837500, 246090844142743564185800, 246130450633915728271500, 246140872910950809363800,
  246180770745826056165700, 246230662226899222568800, 246530701431108000171100, 246810884689254375002100, 246840931689617299575800,
  246850604353216284348700, 246940599186015229916600, 246970844142743564185800, 247080437525375038645300, 247220862374899243581300,
  247360551916231396973900, 247540779083986950070800, 247580749234688094471100, 247920803596232753369200, 248010599186015229916600,
  248080528797941609611200, 248200759412957525465300, 248220670682638025375100, 248260913457461620180300, 248670852843881263148700,
  249080602105930699142800, 249200528797941609611200, 249300564821942619934000, 250000982772179676174900, 250420648368282893954100,
  250640844142743564185800, 250770884689254375002100, 250780648368282893954100, 251120673667934340343160, 251360673667934340343160,
  251530755903825544338400, 251660739997356081369600, 251690726277243930021100, 251970836138472796832100, 252060809312074137364000,
  252770872910950809363800, 252891023318690486991200, 253020852843881263148700, 253610913457461620180300, 253801023318690486991200,
  254020815374536319007600, 256220598469166282055300, 256710598469166282055300, 257050821828388432764700, 257200836138472796832100,
  257780726277243930021100, 258241023318690486991200, 259031023318690486991200, 259580913457461620180300, 259720611414973005744000,
  259910675194681553422000, 260000723745463131592100, 260010542916586013665550, 260090898042393637454400, 260410783529163207154200,
  260800378113795043268650, 260850862374899243581300, 261020821828388432764700, 261140862374899243581300, 261260545406341175838300,
  261270545827394429472600, 261570884689254375002100, 261780821828388432764700, 261790746059818263013150, 261970798189510626341700,
  262140718866446714648900, 262220666365420838854200, 262281023318690486991200, 262480798189510626341700, 262620524616147641279000,
  262630852843881263148700, 262740913457461620180300, 263540670682638025375100, 263680343524649189498200, 263810828727675581459900,
  263910656962525874026600, 264060676745100207018600, 264080666365420838854200, 264121023318690486991200, 264200954003972430996700,
  264341023318690486991200, 264690653188493075741850, 264940788181164770643400, 265050774828025508191200, 265251023318690486991200,
  265430721276201872555000, 265800898042393637454400, 266651023318690486991200, 267580931689617299575800, 268341092633408542985800,
  268620774828025508191200, 271380711967159565953800, 271690631121356858859800, 271920954003972430996700, 274260798189510626341700,
  274890798189510626341700, 274910346757139304889800, 274980653188493075741850, 275150574455053513777300, 275310982772179676174900,
  275440982772179676174900, 275750759412957525465300, 276021023318690486991200, 276110643769771569771800, 276680539690499791843400,
  276830539690499791843400, 277000664966796641380200, 277040523260194662715800, 277350770745826056165700, 277540673667934340343160,
  277690723745463131592100, 277840540487316756761200, 277850540487316756761200, 278330601367919969380500, 278720982772179676174900,
  278820651961483816560400, 278880597050702782859700, 278890898042393637454400, 279050528797941609611200, 279150803596232753369200,
  279580723745463131592100, 279630583873775019747300, 279690898042393637454400, 279730699450845270553150, 279850621680388411752400,
  279870648368282893954100, 280090788181164770643400, 280510752513670376770300, 280630788181164770643400, 280920721276201872555000,
  281010884689254375002100, 281140640454550838081700, 281220651961483816560400, 281290443409425040938650, 281360755903825544338400,
  281450852843881263148700, 281510982772179676174900, 281540699450845270553150, 281650464219992435905600, 282010679919970038476600,
  282220621680388411752400, 282340954003972430996700, 282510718866446714648900, 282870564821942619934000, 283160693735003886558300,
  283310679919970038476600, 283420828727675581459900, 283690815374536319007600, 283720590245356458358100, 283780477786578951221050,
  283850588290896851061100, 284040721276201872555000, 284140477786578951221050, 284150588290896851061100, 284180852843881263148700,
  284220479076919434811900, 284480633121423529526800, 284510788181164770643400, 284590605113676222870600, 284870752513670376770300,
  284910913457461620180300, 285000528797941609611200, 285260982772179676174900, 285360852843881263148700, 285380690098239469470800,
  285480770745826056165700, 286110648368282893954100, 286290564821942619934000, 287030752513670376770300, 287220913457461620180300,
  287790478644953320360200, 287840520930638402363600, 287960568458707037021500, 287990954003972430996700, 288140728874792570347200,
  288470686589107488343850, 288660666365420838854200, 288720788181164770643400, 288790577304249093207800, 288950954003972430996700,
  289090519948633784266100, 289490954003972430996700, 289610378113795043268650, 289660676745100207018600, 290170954003972430996700,
  290220625350525096795100, 290290954003972430996700, 290660627237373527233450, 290740803596232753369200, 290810803596232753369200,
  290880709769268894076260, 291050519948633784266100, 291580954003972430996700, 292110666365420838854200, 292290726277243930021100,
  293050609005217847838000, 293690755903825544338400, 294080982772179676174900, 294210504023005397970200, 294330504023005397970200,
  294810716513396973629500, 294940755903825544338400, 297011092633408542985800, 297910634136660675928500, 298071092633408542985800,
  298080670682638025375100, 298240672164146603889200, 299260852843881263148700, 299780619013563703536200, 299800636198589396202150]

def emitB62_1 : List Nat := [
  300210913457461620180300, 300900783529163207154200, 300950862374899243581300, 301050788181164770643400, 301270742982652396337700,
  301490836138472796832100, 301621092633408542985800, 301710681546022125654600, 301960566883871340207600, 302190742982652396337700,
  302460607430382151024100, 302500982772179676174900, 303030982772179676174900, 303061092633408542985800, 303330489324786363105600,
  303500678319935903832500, 303530783529163207154200, 303620783529163207154200, 303850783529163207154200, 303940783529163207154200,
  304080705513307452196700, 304140688328281759530700, 304420982772179676174900, 304520546250228040424700, 304950766823754740837500,
  305280954003972430996700, 307010414074644042192800, 307020684879664152413800, 307720716513396973629500, 308280655688623296283600,
  308621023318690486991200, 308870586373905240289100, 309330803596232753369200, 309520752513670376770300, 310700749234688094471100,
  311671092633408542985800, 311680774828025508191200, 311711092633408542985800, 312320567406065738322800, 312830723745463131592100,
  313370723745463131592100, 313540513027633466448600, 313640755903825544338400, 314710734281514697374800, 314910734281514697374800,
  315050461459927627694300, 315080573894827958910300, 315580573894827958910300, 315610646042596677527400, 316160737098602394044400,
  317160734281514697374800, 317510742982652396337700, 317560644899727095165100, 317770737098602394044400, 318810809312074137364000,
  318951092633408542985800, 318960821828388432764700, 319320836138472796832100, 319340731541617278563300, 319460647198678917634900,
  320050552365670355757800, 320270701431108000171100, 320340809312074137364000, 320390798189510626341700, 320430913457461620180300,
  320470616416015063210100, 320480435545112309027350, 320800583873775019747300, 320850723745463131592100, 321041023318690486991200,
  321100755903825544338400, 321140774828025508191200, 321600666365420838854200, 321730872910950809363800, 321910613884234264781200,
  322020798189510626341700, 322030693735003886558300, 322330828727675581459900, 323110679919970038476600, 323130954003972430996700,
  323810693735003886558300, 323990982772179676174900, 324180552365670355757800, 324390701431108000171100, 324540435545112309027350,
  324661023318690486991200, 324670583873775019747300, 324770723745463131592100, 324950693735003886558300, 325000872910950809363800,
  325010613884234264781200, 325110666365420838854200, 325310828727675581459900, 325330679919970038476600, 325440982772179676174900,
  325480693735003886558300, 325490954003972430996700, 326290734281514697374800, 326540809312074137364000, 326700770745826056165700,
  326960793060181187586600, 327220763049721942552850, 327360666365420838854200, 327450828727675581459900, 327690602105930699142800,
  328991092633408542985800, 329011092633408542985800, 329330931689617299575800, 329600898042393637454400, 329660982772179676174900,
  329820624420285830563800, 329930982772179676174900, 330300898042393637454400, 330320828727675581459900, 330330828727675581459900,
  330390779083986950070800, 330810898042393637454400, 331470982772179676174900, 331930982772179676174900, 332130982772179676174900,
  332470779083986950070800, 332580766823754740837500, 332610836138472796832100, 332880592912181166574300, 332980731541617278563300,
  333240815374536319007600, 333910723745463131592100, 334570551023368322543750, 334591092633408542985800, 334640931689617299575800,
  334850558399983346504700, 335790507126216322743100, 335890862374899243581300, 335920836138472796832100, 336330982772179676174900,
  336390803596232753369200, 337250739997356081369600, 338310612231304069660100, 338790954003972430996700, 339050632116389944176600,
  339450673667934340343160, 339800558399983346504700, 339940898042393637454400, 340130783529163207154200, 340280913457461620180300,
  340850632116389944176600, 340910766823754740837500, 341570612231304069660100, 341800576154811150634300, 342530783529163207154200,
  343821023318690486991200, 343940788181164770643400, 343950788181164770643400, 345930684879664152413800, 346230821828388432764700,
  347010779083986950070800, 348370931689617299575800, 348470684879664152413800, 348800550138406794845500, 349090609802034812755600,
  349490634136660675928500, 350180634136660675928500, 351240779083986950070800, 351720779083986950070800, 352150703451378731923100,
  352420728874792570347200, 352680703451378731923100, 353650734281514697374800, 354430836138472796832100, 354690763049721942552850,
  355590774828025508191200, 355820862374899243581300, 357480763049721942552850, 357670734281514697374800, 358140836138472796832100,
  358340862374899243581300, 358560774828025508191200, 360420803596232753369200, 361560803596232753369200, 361960561806638802865250,
  362030532421526455015700, 362290852843881263148700, 363000647198678917634900, 363390913457461620180300, 363610667783884338049800,
  363670749234688094471100, 364130844142743564185800, 364330663587464428146700, 365130663587464428146700, 365750600635315960173250,
  366290417289616683207800, 367030852843881263148700, 367190600635315960173250, 367200852843881263148700, 367310417289616683207800,
  367630637245719382931700, 367710898042393637454400, 368050779083986950070800, 368280522255161077365700, 368300587647807818032050,
  368310684879664152413800, 368340774828025508191200, 368360644899727095165100, 368550617274389432349300, 368790679919970038476600,
  368900468216718476612100, 368990587647807818032050, 369180688328281759530700, 369240821828388432764700, 369530693735003886558300,
  369600522255161077365700, 369650693735003886558300, 369780684879664152413800, 370030913457461620180300, 370570690098239469470800,
  372210982772179676174900, 372400641547457891300800, 372551023318690486991200, 372570766823754740837500, 373220742982652396337700,
  373230742982652396337700, 373250478644953320360200, 373290582038861152927700, 376050737098602394044400, 376580898042393637454400,
  376790673667934340343160, 379410585742988320962600, 380810585742988320962600, 381260898042393637454400, 381470737098602394044400,
  381690673667934340343160, 382630456330598188939300, 382710456330598188939300, 382750522255161077365700, 382830982772179676174900,
  383780522255161077365700, 383910749234688094471100, 383930654430745075597550, 384520638303930315985400, 385120638303930315985400,
  385430669222758083259800, 385440433055357146854600, 385680669222758083259800, 385770433055357146854600, 385960606652168106818600,
  386050711967159565953800, 386201023318690486991200, 386340491752089998726200, 386460695604217187773600, 386540688328281759530700,
  386710872910950809363800, 386950688328281759530700, 387010862374899243581300, 387240862374899243581300, 387380624420285830563800,
  387450435685266501556200, 387480435685266501556200, 387500504580109902915700, 389110763049721942552850, 389141023318690486991200,
  389180788181164770643400, 389260746059818263013150, 389690650749347763325900, 390030954003972430996700, 390190602105930699142800,
  390301023318690486991200, 390340788181164770643400, 390400746059818263013150, 390590650749347763325900, 390720954003972430996700,
  390760602105930699142800, 390870695604217187773600, 391080721276201872555000, 391220695604217187773600, 391280721276201872555000,
  391310549698845647541700, 391340549698845647541700, 393210658252866357617350, 393330752513670376770300, 394050707618648371979900,
  395540734281514697374800, 395590707618648371979900, 395920821828388432764700, 396360872910950809363800, 396400501825114726092600,
  397190654430745075597550, 397290690098239469470800, 398540559845791664027600, 400231092633408542985800, 400920559845791664027600,
  401581092633408542985800, 406350672164146603889200, 406430699450845270553150, 406440699450845270553150, 406570431968389923164200,
  406640416823958100212700, 406690648368282893954100, 406790728874792570347200, 406870630136127214558700, 407180554643673188939800,
  407230684879664152413800, 407780659560074514352700, 407840659560074514352700]

/-- The rows of `('B', tag)`, for the 64 tags. -/
def emitB : List (List (List Nat)) := [
  [emitB0_0, emitB0_1, emitB0_2, emitB0_3],
  [emitB1_0],
  [],
  [emitB3_0],
  [emitB4_0, emitB4_1, emitB4_2],
  [],
  [emitB6_0],
  [emitB7_0, emitB7_1],
  [emitB8_0],
  [],
  [emitB10_0],
  [],
  [emitB12_0],
  [],
  [emitB14_0],
  [emitB15_0, emitB15_1, emitB15_2, emitB15_3, emitB15_4, emitB15_5],
  [emitB16_0],
  [emitB17_0, emitB17_1],
  [emitB18_0],
  [],
  [emitB20_0, emitB20_1, emitB20_2, emitB20_3, emitB20_4],
  [emitB21_0],
  [emitB22_0],
  [],
  [emitB24_0],
  [emitB25_0, emitB25_1, emitB25_2, emitB25_3, emitB25_4, emitB25_5, emitB25_6, emitB25_7, emitB25_8, emitB25_9, emitB25_10, emitB25_11, emitB25_12, emitB25_13],
  [],
  [emitB27_0, emitB27_1, emitB27_2],
  [emitB28_0],
  [emitB29_0, emitB29_1, emitB29_2],
  [emitB30_0, emitB30_1, emitB30_2, emitB30_3, emitB30_4],
  [emitB31_0, emitB31_1],
  [emitB32_0, emitB32_1, emitB32_2, emitB32_3, emitB32_4],
  [emitB33_0],
  [emitB34_0],
  [emitB35_0],
  [emitB36_0],
  [],
  [emitB38_0],
  [],
  [emitB40_0],
  [emitB41_0],
  [emitB42_0],
  [emitB43_0, emitB43_1],
  [],
  [emitB45_0],
  [],
  [],
  [],
  [],
  [],
  [],
  [emitB52_0, emitB52_1, emitB52_2, emitB52_3, emitB52_4, emitB52_5, emitB52_6, emitB52_7, emitB52_8],
  [emitB53_0],
  [],
  [emitB55_0],
  [emitB56_0, emitB56_1, emitB56_2, emitB56_3],
  [emitB57_0],
  [],
  [],
  [emitB60_0],
  [],
  [emitB62_0, emitB62_1],
  []]

end Jieba.PosData
