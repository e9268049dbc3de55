import Verif.Model.Basic
/-!
# jieba/posseg/prob_emit.py: the states with 'E'

Generated, in the order of the file.  An entry `'c': -x` is written as one number, `code point * 10^19 + x * 10^17`; long rows are
written as several lists.
-/

namespace Jieba.PosData

def emitE0_0 : List Nat := [
  199680652847963921071800, 199790677659611145630800, 199851354508932310493700, 200050650806170841866000, 200070777053777756052900,
  200130811574369415049500, 200161285194214254499200, 200270575150251973335400, 200290559882567952439600, 200370606918335373753950,
  200410858926226550367600, 200460886295809598071700, 200470760491807038450600, 200480627616919491121550, 200561193565141067083600,
  200810564371196931232200, 200980564371196931232200, 201070743362198360225900, 201300890069842396356500, 201420575480694240145400,
  201461014389194144278200, 201540568683514091890800, 201611106018267331693700, 201631060065034393849700, 202150789964242546170000,
  202211083703912200272700, 202470912624871530834000, 202550694794362121828500, 202600728550785904001400, 202660848249429007797000,
  202840572464980784275700, 203020561632300147824200, 203030850813672069130800, 203070487174744919876800, 203130740305191751758100,
  203160996157038464882700, 203181354508932310493700, 203390868527691874326500, 203471017779349311846300, 203510912624871530834000,
  203581354508932310493700, 203600806862577117342600, 204150543016634890034500, 204190714982772498948700, 204260846368495812047400,
  204310872480775749990000, 204320891036033487530200, 204390642626307404285950, 204421159917917404962400, 204490717518834027671000,
  204610861783563794773100, 204981014389194144278200, 205180755863731782049900, 205400909074202685143000, 205510740952443202319800,
  205530694794362121828500, 205810647776947445146200, 205881060065034393849700, 206050848249429007797000, 206330706657968089636800,
  206451090603199348967900, 206551060065034393849700, 206580732251305503356900, 206630728550785904001400, 206671134786474576871700,
  206870900179454083493300, 207251077250060086515600, 207290789964242546170000, 207310789611508494373100, 207450861783563794773100,
  207951090603199348967900, 207990892011650982066600, 208010847618512088470600, 208090988152767697529000, 208111065471756520877200,
  208180892011650982066600, 208391159917917404962400, 208400696722796538389000, 208440858926226550367600, 208520541473577567369900,
  208691159917917404962400, 208871124250423011089000, 209010967388831219704700, 209150971644792661584200, 209181114719405030656700,
  209190668757526055954600, 209250946755187919921700, 209280617674963679355600, 209321071187597904872000, 209340885374144087579400,
  209370681646071002023600, 209450830334230804529500, 209571354508932310493700, 209610829806525094445000, 209851083703912200272700,
  209860527073231634864600, 209910913837007584068300, 209980816059426031584900, 209990556028593337053100, 210170778618754922765600,
  210181077250060086515600, 210290618498535011578450, 210330503754250874050500, 210350618498535011578450, 210400756115304241774700,
  210461106018267331693700, 210510607886176688945600, 210630778618754922765600, 210660876596582999340700, 210690729898255762337500,
  210831077250060086515600, 211470568799545820244500, 211510473806636717946000, 211550693304828827184500, 211600501005621356036800,
  211611060065034393849700, 211700559811796541134700, 211710658949671470863900, 211831285194214254499200, 211850559811796541134700,
  211870840342576660227700, 211910717347747587308100, 211930993417141046071200, 212050501005621356036800, 212131193565141067083600,
  212140658949671470863900, 212150608402380875065400, 212181285194214254499200, 212200773095879127987000, 212430680930930886261000,
  212480680930930886261000, 212531114719405030656700, 212700937070205320930000, 213260631307899144017900, 213290880889087471044000,
  213301011110211861979000, 213330511803968154166500, 213380865474019488318400, 213610856835558068436300, 213850818379715739551200,
  213881215879496198504700, 214020575439329193019860, 214211215879496198504700, 214260818379715739551200, 214571215879496198504700,
  214620953775613787246500, 214630714151512517012200, 214640946755187919921700, 214750772797816314173200, 214761215879496198504700,
  214970976089968918667600, 215070767297153362952140, 215121065471756520877200, 215160353342023772428070, 215170474061413925825800,
  215180611854025070763200, 215210843914384920435600, 215331036703549275699200, 215341215879496198504700, 215480786150955576625500,
  216081011110211861979000, 216190848884351775663000, 216211354508932310493700, 216290884460895731252000, 216440560095183199082400,
  216960873290496773252000, 217050963306631767679100, 217091354508932310493700, 217130812013930562353400, 217361071187597904872000,
  217461285194214254499200, 217760780208613529545500, 217951124250423011089000, 218540812013930562353400, 218680928240944606362100,
  218920675386786037875100, 219160688579540342130000, 219171011110211861979000, 219300777053777756052900, 219340511803968154166500,
  219590928240944606362100, 219901017779349311846300, 220220976089968918667600, 220250998974126161552300, 220681106018267331693700,
  221201001872879848877500, 221211215879496198504700, 221220950203805527038600, 221791354508932310493700, 221960650806170841866000,
  222101354508932310493700, 222180902330074605589700, 222420959384560452351000, 222560687179135533728300, 222660656687558047423900,
  222690638502011550881000, 222780924102422990076800, 222830638502011550881000, 222910924102422990076800, 222960959384560452351000,
  223070721893984994983700, 223121045404686974662100, 223301106018267331693700, 223430422921844991929100, 223740694385920437606100,
  223910866989199990378600, 224321045404686974662100, 224461098013996564340000, 225190876596582999340700, 225301032621349823673600,
  225701024925245710060800, 225801106018267331693700, 226041244647703443682700, 226150697280678041092900, 226221050056688538151500,
  227660681765759825408150, 227670681765759825408150, 227810827723116404161000, 227910706657968089636800, 227970948464631255851700,
  228060592144737659336500, 228100715149856915430500, 228150627060976433106600, 228160627060976433106600, 228230270548880374756800,
  228330929659408105557700, 228360850166420618569000, 228550600075721505124900, 228560934039670371397000, 228590805615159694825000,
  228650836893959053110800, 228710656222657163599400, 228821077250060086515600, 228850893991913711684600, 228870893991913711684600,
  228940805615159694825000, 229090421830013848550800, 229140814241194123265700, 229160900179454083493300, 229251285194214254499200,
  229370629161894042041000, 229490734458014906224700, 229870589396914740223700, 230390951973763236978800, 230461007935342030521000,
  230471354508932310493700, 230671040959510717578800, 230681028699278508345600, 230891040959510717578800, 231130812455432383265100,
  231460788909751228508400, 231940784799583659953300, 232441071187597904872000, 232730761019512748534900, 233041007935342030521000,
  233081354508932310493700, 233761090603199348967900, 233840915064016843249700, 233890881770150439259700, 233980848884351775663000,
  234160848884351775663000, 234250762083352569040500, 234320692235299915509700, 234330558023843565762400, 234391021288481292973300,
  234500404836772441002200, 234520635743215898998100, 234540504199505606820100, 234560938620623974526500, 234581004858176163845800,
  234750607714699081908500, 234781054935704955094500, 234810746974329201625300, 234900830334230804529500, 234940555858438455094200,
  235000481197862546622900, 235060770154490607357700, 235180748363240417691960, 235250971644792661584200, 235260504199505606820100,
  235270762083352569040500, 235410938620623974526500, 235440998974126161552300, 235450722252408317765300, 235510827723116404161000,
  235650722252408317765300, 235670551957293661593000, 235690740305191751758100, 235740916306268843105400, 235780799212973818331900,
  235960699115591907912600, 236130839179772860715700, 236181354508932310493700, 236240957479740955281500, 236331134786474576871700,
  236370990750316337855200, 236521354508932310493700, 237020832473349802661200, 237361065471756520877200, 237890788909751228508400,
  238030651423184698881650, 238351065471756520877200, 239430832473349802661200, 240371098013996564340000, 240390688579540342130000,
  240400821721315431535600, 240460685300558059830860, 240500802362840524269000, 240520928240944606362100, 240860935543458107851200,
  241200437859635090903100, 241780882659045180984200, 241790601460932785940000, 241840738811033751938150, 241850882659045180984200,
  241870976089968918667600, 241881146564778142510100, 241890971644792661584200, 241910797293529092717300, 241960847618512088470600,
  242070718724705659683800, 242230932558161792883000, 242300611854025070763200, 242311011110211861979000, 242460866228740051856700,
  242470530946360314062600, 242480828759395107715600, 242650781824157551774000, 242751215879496198504700, 242900932558161792883000,
  242910797293529092717300, 243101244647703443682700, 243140575687776525786100, 243201124250423011089000, 243220592487455253048200,
  243350793561752791997700, 243441045404686974662100, 243470776126414077519900, 243520544492787616832900, 243690557676982309222000,
  243730544492787616832900, 243750620037026895526500, 243780620037026895526500, 244030512926462607698850, 244181354508932310493700,
  244250691837157385591300, 244321159917917404962400, 244430882659045180984200, 244600611854025070763200, 244710643848318537763500,
  244940689351744951521000, 245030931098281850767700, 245050882659045180984200, 245150520821968581998100, 245250810701001418174100,
  245290948464631255851700, 245360940195459671340400, 245370725352018354661700, 245440998974126161552300, 245511114719405030656700,
  245541124250423011089000, 245550557676982309222000, 245611159917917404962400, 245731215879496198504700, 245761065471756520877200,
  245771106018267331693700, 245810894996947297034700, 245820959384560452351000, 245940794297050222523600, 245970640384420075444500,
  245980683456621365250900, 246040835213247221472700, 246050713986086507409600, 246080850813672069130800, 246130541945833462787300,
  246150880015719474168600, 246160948464631255851700, 246171011110211861979000, 246180736922205299917500, 246230762888726049750150,
  246531244647703443682700, 246560737130321920300000, 246770791746820941430000, 246800824178441504586200, 246841244647703443682700,
  246850906775250862673000, 246870943421545893162500, 246910829806525094445000, 246940692501611657458050, 246960969494172139487800,
  246991146564778142510100, 247000679632977561325800, 247090703185921219262950, 247170835213247221472700, 247221134786474576871700,
  247301011110211861979000, 247351106018267331693700, 247420703185921219262950, 247540797293529092717300, 247560819323118962887000]

def emitE0_1 : List Nat := [
  247570894996947297034700, 247580703632018613325500, 247730580660120061029200, 247780699830391234441300, 247850773095879127987000,
  247920886295809598071700, 247940838030334918142300, 247960836330577281285200, 248000793928725680894000, 248010692501611657458050,
  248070765898529165478200, 248080752406597375541100, 248110912624871530834000, 248130940195459671340400, 248160946755187919921700,
  248170679632977561325800, 248191285194214254499200, 248220874929877750819600, 248251215879496198504700, 248271146564778142510100,
  248330821237052983956800, 248410976089968918667600, 248470648977647976518500, 248530885374144087579400, 248581193565141067083600,
  248590660971887708982650, 248630626646038078425400, 248680722252408317765300, 248701090603199348967900, 248710786150955576625500,
  248840959384560452351000, 249040888165022899287000, 249071106018267331693700, 249080724430352844169300, 249100569498577792935600,
  249200752406597375541100, 249220940195459671340400, 249270969494172139487800, 249300609967176640324900, 249350861783563794773100,
  249360729126051152946350, 249420770444766573153800, 249440795037794350309750, 249621114719405030656700, 249700912624871530834000,
  249741011110211861979000, 249760835213247221472700, 249781090603199348967900, 249960722252408317765300, 250001134786474576871700,
  250220708989075976481500, 250260910243806661462000, 250310829806525094445000, 250320902330074605589700, 250410911427252426162400,
  250420948464631255851700, 250590911427252426162400, 250620926842320408888100, 250780948464631255851700, 250791065471756520877200,
  250840765898529165478200, 251040990750316337855200, 251111083703912200272700, 251120937070205320930000, 251141014389194144278200,
  251271083703912200272700, 251360937070205320930000, 251500973842683333461800, 251600915064016843249700, 251630766735354132529800,
  251650957479740955281500, 251910876596582999340700, 251960875759758032289000, 251970842112534370167900, 252140950203805527038600,
  252400687813253067573000, 252891285194214254499200, 252991106018267331693700, 253000878291538830718100, 253030897037834460155500,
  253050843310153474839400, 253240993417141046071200, 253450891036033487530200, 253611001872879848877500, 253700802362840524269000,
  253800784130684844873600, 253841065471756520877200, 253910808550380896077800, 254020824178441504586200, 254231024925245710060800,
  254391106018267331693700, 254540950203805527038600, 254630715989492410721200, 255051060065034393849700, 255620875759758032289000,
  256131106018267331693700, 256301134786474576871700, 257110802362840524269000, 257580938620623974526500, 258180950203805527038600,
  258240784130684844873600, 259180905645295337279800, 259251146564778142510100, 259280475710592690713700, 259350742919719762190300,
  259431011110211861979000, 259471024925245710060800, 259490935543458107851200, 259500811136731955069700, 259540707428981932233500,
  259550744926476067271200, 259640740520477087868200, 259680805202787976438800, 259720575439329193019860, 259760805202787976438800,
  259861024925245710060800, 259910880889087471044000, 260071007935342030521000, 260290781824157551774000, 260320541120843515573000,
  260390781824157551774000, 260410775512915220768400, 260621106018267331693700, 260870736300441638830500, 260890951973763236978800,
  260970635970230752452000, 261020740305191751758100, 261030877440469863927100, 261060818379715739551200, 261140786833552083665600,
  261260514713021961239700, 261310473971418419526700, 261430836330577281285200, 261510776126414077519900, 261651014389194144278200,
  261740410618014316948000, 261780740305191751758100, 261791134786474576871700, 261971060065034393849700, 262140924102422990076800,
  262240651334806434180900, 262340759966871449836200, 262420708362114675121900, 262481060065034393849700, 262620801963638397315400,
  262630646759126953570500, 262740689869880825720700, 262830708362114675121900, 262891014389194144278200, 262920742040593221073200,
  263360877440469863927100, 263541054935704955094500, 263641134786474576871700, 263770750483461182752300, 263810704831433291907400,
  263881354508932310493700, 263910636959960948071500, 263950627269093053489100, 264070675050274222843800, 264081054935704955094500,
  264111065471756520877200, 264120378443341967635140, 264200717861887537349900, 264290805202787976438800, 264321032621349823673600,
  264340516257103501530100, 264630892011650982066600, 264650742040593221073200, 264691354508932310493700, 264791146564778142510100,
  264940521398477505189800, 264950846368495812047400, 264970744701504093869600, 265800709461890096076100, 266790842112534370167900,
  266841060065034393849700, 267751354508932310493700, 267810742040593221073200, 267910893991913711684600, 268341244647703443682700,
  268620901248982995168100, 268651354508932310493700, 269700500496116040620400, 269970744701504093869600, 270540733448924608028400,
  270731098013996564340000, 271380627616919491121550, 271710842112534370167900, 271780789611508494373100, 271920717861887537349900,
  272430789611508494373100, 274270985620986899100000, 274541193565141067083600, 274650853445402900868200, 274910653839409626789600,
  274940801963638397315400, 274981106018267331693700, 275150875759758032289000, 275261050056688538151500, 275300511825857176909100,
  275310903422981658808800, 275440903422981658808800, 275781032621349823673600, 275890804383111256021000, 276020825178449838044500,
  276680584842224157847600, 276830584842224157847600, 277041007935342030521000, 277451106018267331693700, 277601175332985387688300,
  277700971644792661584200, 277790728550785904001400, 277840683213312242786700, 277850683213312242786700, 277880812455432383265100,
  277950941795493805984500, 278030732848322202007200, 278141244647703443682700, 278251106018267331693700, 278501114719405030656700,
  278610630874998035059300, 278670501893639031722750, 278701354508932310493700, 278881354508932310493700, 279000736714520905433600,
  279050608230016569248900, 279151215879496198504700, 279161244647703443682700, 279220826697466387442000, 279271285194214254499200,
  279340926842320408888100, 279630604345486522152300, 279640812013930562353400, 279660783466230573006800, 279690771320684582142050,
  279730873290496773252000, 279780797293529092717300, 279820858224469284503000, 279851215879496198504700, 280100996157038464882700,
  280140926842320408888100, 280340697280678041092900, 280441106018267331693700, 280700736300441638830500, 280720744926476067271200,
  280730748830530987631300, 280920681646071002023600, 281131007935342030521000, 281141071187597904872000, 281290647521519464636500,
  281360617674963679355600, 281381244647703443682700, 281390957479740955281500, 281450698123379657280900, 281510983151725640062900,
  281540873290496773252000, 281561098013996564340000, 281650827723116404161000, 281971146564778142510100, 282010861061538997424600,
  282120967388831219704700, 282181001872879848877500, 282221215879496198504700, 282271354508932310493700, 282340830334230804529500,
  282510823188334406315000, 282631106018267331693700, 282870708518486872740200, 283100885374144087579400, 283160943421545893162500,
  283310861061538997424600, 283690706504476117828400, 283820866228740051856700, 283850604954737922068100, 283990866228740051856700,
  284150604954737922068100, 284181134786474576871700, 284351285194214254499200, 284480818850304843292400, 284590734864519531041600,
  284660744926476067271200, 284970736714520905433600, 285000608230016569248900, 285160736300441638830500, 285440748830530987631300,
  285481215879496198504700, 285520812898892090051600, 285721193565141067083600, 286080920128390125125300, 286090797293529092717300,
  286290708518486872740200, 286321354508932310493700, 286390858224469284503000, 286980971644792661584200, 287341193565141067083600,
  287530826697466387442000, 287790747898123300118900, 287841193565141067083600, 287890792468845738778700, 287960893991913711684600,
  288571215879496198504700, 288600993417141046071200, 288611090603199348967900, 288660750008400906892500, 288720453259031958074600,
  288881215879496198504700, 289020710414278247201650, 289090591559940671094200, 289660922760120956862700, 289820574985439410276500,
  290010993417141046071200, 290040711860086564724600, 290301050056688538151500, 290330710414278247201650, 290870553042295263999500,
  291000901248982995168100, 291050591559940671094200, 291071215879496198504700, 291181090603199348967900, 291230976089968918667600,
  291570634541097741376400, 291900656780798147419000, 292110750008400906892500, 292330660971887708982650, 292450732449915300519800,
  292731215879496198504700, 292821071187597904872000, 293050586676296659805100, 293430988152767697529000, 293670874106827837168000,
  293780611438224055896800, 294060890069842396356500, 294080880889087471044000, 294200764245598970357100, 294210971644792661584200,
  294231024925245710060800, 294330971644792661584200, 294670683700523925186800, 294771285194214254499200, 295020829281589505830800,
  295270845749298787255200, 295440764245598970357100, 295461024925245710060800, 295520890069842396356500, 295590874106827837168000,
  295750764519196952244500, 296090950203805527038600, 296141354508932310493700, 296451175332985387688300, 296490883555912179260300,
  297020518595443634697500, 297120846991550787111000, 297711354508932310493700, 297900959384560452351000, 297950846991550787111000,
  298010826188559436694800, 299030883555912179260300, 299761159917917404962400, 299780953775613787246500, 299800845749298787255200,
  299830718898166240904600, 299920560024261210294050, 300010509339511392139500, 300210689869880825720700, 300530855465673632620100,
  300640592487455253048200, 300700512926462607698850, 300950738811033751938150, 300970666162673669184450, 301060812898892090051600,
  301400800775505608640000, 301620813791755164481900, 301710642545368508730100, 301961215879496198504700, 302011024925245710060800,
  302021024925245710060800, 302091175332985387688300, 302400889112897294741300, 302460791029971993568700, 302500993417141046071200,
  302700935543458107851200, 303030993417141046071200, 303060813791755164481900, 303180935543458107851200, 303191083703912200272700,
  303310941795493805984500, 303321215879496198504700, 303330692102409530504300, 303401354508932310493700, 303430948464631255851700,
  303820760228994797823600, 304080830864736027498700, 304100743362198360225900, 304270594368698852120300, 304330839179772860715700,
  304420822696932926072000, 304460783797905835606100, 304520731855265381747200, 304560932558161792883000, 304651215879496198504700]

def emitE0_2 : List Nat := [
  304750696168010094617300, 304950730481347793416700, 305240661851228988221200, 305260912624871530834000, 305280716666313945335000,
  305660928240944606362100, 306341114719405030656700, 306841124250423011089000, 306930796535949711871450, 306971285194214254499200,
  306991354508932310493700, 307010869305905918532000, 307020850813672069130800, 307031354508932310493700, 308050880889087471044000,
  308280660874658727088700, 308300494135153028851400, 308600761816329713452600, 308620792831822543836600, 308761354508932310493700,
  308871083703912200272700, 308890880889087471044000, 309060494135153028851400, 309471354508932310493700, 309520860344690049563200,
  310360838603402389040800, 310700796159301432323800, 310711045404686974662100, 310770912624871530834000, 311190620620118926605800,
  311500838603402389040800, 311630940195459671340400, 311680602485476663030900, 311690860344690049563200, 311810879149913199857200,
  311851159917917404962400, 311920625958277458215100, 312160687179135533728300, 312290778303794032476050, 312320796159301432323800,
  312521054935704955094500, 312580834659229183911000, 312640871677558580263500, 312780879149913199857200, 312810687179135533728300,
  312830579404420513313500, 312930837460532806678500, 313020819798179238746800, 313100790318225216682400, 313300778303794032476050,
  313370579404420513313500, 313501175332985387688300, 313510839759484629148500, 313540918838049641534500, 313591124250423011089000,
  313640681885592074619050, 313811021288481292973300, 313841050056688538151500, 314020812013930562353400, 314060839759484629148500,
  314351134786474576871700, 314691045404686974662100, 314711014389194144278200, 314911193565141067083600, 315050740090368897929100,
  315280925462988195654600, 315610622390076636545900, 316161285194214254499200, 316390854787704934082300, 317161193565141067083600,
  317771285194214254499200, 318211124250423011089000, 318951124250423011089000, 319290779251668427930400, 319460670347384662734500,
  319570789611508494373100, 319610766176693461665800, 320040866989199990378600, 320200643684518337339600, 320260582462762850521500,
  320320778303794032476050, 320340882659045180984200, 320390688964897273728900, 320430976089968918667600, 320470795410234259408000,
  320480590112737410240750, 320800650718335965775500, 320851011110211861979000, 320970980741970482157000, 321130763429267906440940,
  321470787176605593344500, 321600998974126161552300, 321631114719405030656700, 321841354508932310493700, 321890929659408105557700,
  321910880015719474168600, 322020688964897273728900, 322271175332985387688300, 322330700839772551363200, 322420937070205320930000,
  322440695616284557141700, 322871021288481292973300, 323051045404686974662100, 323111285194214254499200, 323210624057337664478150,
  323960472542397376428400, 323991014389194144278200, 324220866989199990378600, 324230582462762850521500, 324310643684518337339600,
  324371045404686974662100, 324381354508932310493700, 324510695616284557141700, 324540590112737410240750, 324630787176605593344500,
  324670650718335965775500, 324760980741970482157000, 324771011110211861979000, 324790763429267906440940, 324930472542397376428400,
  324960929659408105557700, 325010880015719474168600, 325071114719405030656700, 325110998974126161552300, 325200937070205320930000,
  325310700839772551363200, 325331285194214254499200, 325361175332985387688300, 325391021288481292973300, 325441014389194144278200,
  325700762351090346112150, 325971060065034393849700, 326540563156830582104200, 326700856835558068436300, 326731354508932310493700,
  326761004858176163845800, 326801354508932310493700, 326810858926226550367600, 326941054935704955094500, 327361011110211861979000,
  327680858926226550367600, 327690599337710775362600, 327811045404686974662100, 327840940195459671340400, 328190805615159694825000,
  328270791746820941430000, 328420813344327124989700, 328440957479740955281500, 328540721893984994983700, 328620973842683333461800,
  328731050056688538151500, 328851050056688538151500, 328870957479740955281500, 328930786150955576625500, 328990694794362121828500,
  329010694794362121828500, 329020872480775749990000, 329431007935342030521000, 329590941795493805984500, 329601354508932310493700,
  329630980741970482157000, 329721124250423011089000, 329820773095879127987000, 329881193565141067083600, 329990675050274222843800,
  330210768430309963907100, 330300798056891578224400, 330390836893959053110800, 330411285194214254499200, 330501024925245710060800,
  330670882659045180984200, 330730882659045180984200, 330800864724952315402500, 330811354508932310493700, 330940888165022899287000,
  331040911427252426162400, 331250825682229241040100, 331261285194214254499200, 331310941795493805984500, 331391024925245710060800,
  331400971644792661584200, 331470740736226901870200, 331930740736226901870200, 332111054935704955094500, 332250864724952315402500,
  332260940195459671340400, 332470836893959053110800, 332610950203805527038600, 332680512198705508829500, 332880541473577567369900,
  332900736300441638830500, 332921060065034393849700, 332981175332985387688300, 333240379504436781238700, 333910588262150790470000,
  333940663334202285326200, 333950735682520002234700, 333990735682520002234700, 334360862510839727681100, 334521175332985387688300,
  334571045404686974662100, 334851354508932310493700, 334871285194214254499200, 334990998974126161552300, 335100658379327719477000,
  335380836330577281285200, 335790798056891578224400, 336090993417141046071200, 336330822696932926072000, 336350733448924608028400,
  336740847618512088470600, 337210826188559436694800, 337250910243806661462000, 337561354508932310493700, 337750631307899144017900,
  337780892996880626367700, 338530799601323820971700, 338790716666313945335000, 339450980741970482157000, 339801354508932310493700,
  339880832473349802661200, 340131001872879848877500, 341080918838049641534500, 341090732648920341320800, 341481193565141067083600,
  341540862510839727681100, 341800685673460915817500, 342491004858176163845800, 342531001872879848877500, 342551354508932310493700,
  342970918838049641534500, 343111285194214254499200, 343820901248982995168100, 343841146564778142510100, 343850770444766573153800,
  343940731657831951375400, 343950731657831951375400, 344321060065034393849700, 345420773995435418844800, 345880826188559436694800,
  346451060065034393849700, 347011032621349823673600, 348500820755124340362000, 348750773995435418844800, 348920566201997179918400,
  349130511084305250962600, 349800945074476088283600, 350090795410234259408000, 350290622854114592196100, 350640938620623974526500,
  352010328971326336403700, 352110554139198401056900, 352150735888069920444300, 352220888165022899287000, 352421014389194144278200,
  352580689999835359929300, 352640516922930780534350, 352650554139198401056900, 352660516922930780534350, 352680735888069920444300,
  352700888165022899287000, 352730689999835359929300, 352990837460532806678500, 353281134786474576871700, 353521106018267331693700,
  353570703334399346020960, 353651014389194144278200, 354080857527602352893600, 354350852780948629001200, 354410799601323820971700,
  354430855465673632620100, 354651175332985387688300, 354770856148270139660100, 354880660777524188125600, 354980865474019488318400,
  355190822207934396652900, 355271077250060086515600, 355590664335211644836300, 356000926842320408888100, 356280828759395107715600,
  356410726282257620893000, 356570808125751807932600, 356620948464631255851700, 356721285194214254499200, 356760941795493805984500,
  356860891036033487530200, 357091175332985387688300, 357121354508932310493700, 357220946755187919921700, 357601106018267331693700,
  357660703334399346020960, 357671014389194144278200, 357770808125751807932600, 357821285194214254499200, 357840857527602352893600,
  358020660777524188125600, 358050799601323820971700, 358060856148270139660100, 358140855465673632620100, 358150852780948629001200,
  358280865474019488318400, 358351354508932310493700, 358430822207934396652900, 358481077250060086515600, 358560664335211644836300,
  358790926842320408888100, 358800726282257620893000, 358840828759395107715600, 358890941795493805984500, 358900948464631255851700,
  359051106018267331693700, 359201285194214254499200, 359370721003507160687800, 359460819798179238746800, 359470674826560483008200,
  359981021288481292973300, 360011011110211861979000, 360070875759758032289000, 360110892011650982066600, 360200552449017320796600,
  360271098013996564340000, 360281011110211861979000, 360320985620986899100000, 360680825682229241040100, 360741106018267331693700,
  360841017779349311846300, 361261021288481292973300, 361301011110211861979000, 361331011110211861979000, 361361106018267331693700,
  361390875759758032289000, 361430892011650982066600, 361450825682229241040100, 361481011110211861979000, 361490552449017320796600,
  361531098013996564340000, 361540985620986899100000, 361821017779349311846300, 361991106018267331693700, 362030828239913420005200,
  362081106018267331693700, 362150805202787976438800, 362290835770351726418200, 362340660486685398529800, 362590681407122262285400,
  362750492227564982501600, 362911354508932310493700, 363351146564778142510100, 363430818850304843292400, 364261050056688538151500,
  364601083703912200272700, 364740818850304843292400, 364810682125688228372900, 364931354508932310493700, 365230886295809598071700,
  365561065471756520877200, 365750626646038078425400, 366290562864646298267700, 366810861061538997424600, 366851175332985387688300,
  367121065471756520877200, 367160861061538997424600, 367190626646038078425400, 367310562864646298267700, 367611175332985387688300,
  367630859632943272676900, 367670904527965277467200, 367710777989822032009200, 367771065471756520877200, 367831065471756520877200,
  367980521615528114940700, 368070748830530987631300, 368080860344690049563200, 368160743140714327270600, 368170729511408084545400,
  368270555113177553137100, 368280543797185235454700, 368430740090368897929100, 368550996157038464882700, 368660578206801408642000,
  368701215879496198504700, 368740823682162570373100, 368790866989199990378600, 368900517269071659193300, 368950892996880626367700,
  369131011110211861979000, 369140555113177553137100, 369200898074113163710100, 369301083703912200272700, 369390743140714327270600,
  369410840342576660227700, 369420748830530987631300, 369470740520477087868200, 369480521615528114940700, 369530881770150439259700,
  369560823682162570373100, 369600543797185235454700, 369621004858176163845800, 369650881770150439259700, 369690578206801408642000]

def emitE0_3 : List Nat := [
  369890988152767697529000, 369930860344690049563200, 369950851465140171250200, 370340913837007584068300, 370570684929040604644500,
  371450851465140171250200, 371970839759484629148500, 372390662244543162904900, 372400782806162169871560, 372550996157038464882700,
  372660681168743126757700, 372761354508932310493700, 373191060065034393849700, 373250413499685927191500, 373260940195459671340400,
  373270789964242546170000, 373890833015356549595200, 375550644341335148549400, 376581071187597904872000, 376660729898255762337500,
  376790583309281605726800, 378480925462988195654600, 379841065471756520877200, 380130976089968918667600, 380150913837007584068300,
  380450833015356549595200, 380650729898255762337500, 380750976089968918667600, 380841065471756520877200, 381261071187597904872000,
  381600644341335148549400, 381690583309281605726800, 381970925462988195654600, 382630608805723398255600, 382710608805723398255600,
  382720780851702562574500, 382811114719405030656700, 382831124250423011089000, 382900833015356549595200, 383460597053083890245600,
  383700904527965277467200, 383760780851702562574500, 383811114719405030656700, 383860833015356549595200, 383910703632018613325500,
  383930650630578171639600, 383950973842683333461800, 384200597053083890245600, 384641106018267331693700, 384750749300015418052000,
  384800568876975169834950, 385050722792463635765350, 385340916306268843105400, 385520899121243150439600, 385700722792463635765350,
  385900650630578171639600, 385961071187597904872000, 385970662047692705637700, 385980635516715235912950, 386200516257103501530100,
  386260940195459671340400, 386270650630578171639600, 386650773095879127987000, 387061244647703443682700, 387280792468845738778700,
  387380940195459671340400, 387450519607812492893500, 387480519607812492893500, 387520659140511223440000, 387530839759484629148500,
  387540750960789058018100, 388600818379715739551200, 388870818379715739551200, 389010940195459671340400, 389070940195459671340400,
  389111354508932310493700, 389141354508932310493700, 389180752406597375541100, 389191114719405030656700, 389290950203805527038600,
  389310905645295337279800, 389570850166420618569000, 389881159917917404962400, 390230410618014316948000, 390301354508932310493700,
  390321114719405030656700, 390340752406597375541100, 390370950203805527038600, 390390905645295337279800, 390620790318225216682400,
  390641159917917404962400, 390800948464631255851700, 390871354508932310493700, 391081065471756520877200, 391180948464631255851700,
  391221354508932310493700, 391281065471756520877200, 391381071187597904872000, 391860971644792661584200, 391920740305191751758100,
  392500861783563794773100, 392621054935704955094500, 392691071187597904872000, 392860861783563794773100, 392970971644792661584200,
  393071054935704955094500, 393210921435598281860600, 393360833560317026351600, 393471054935704955094500, 393481060065034393849700,
  393611354508932310493700, 394050862510839727681100, 394891114719405030656700, 395110928240944606362100, 395140699830391234441300,
  395351060065034393849700, 395361054935704955094500, 395391354508932310493700, 395590862510839727681100, 395640928240944606362100,
  395801114719405030656700, 395920945074476088283600, 396360487174744919876800, 396400458359499979533700, 396540857527602352893600,
  397171007935342030521000, 397190650630578171639600, 397290684929040604644500, 397460983151725640062900, 397480922760120956862700,
  397910892011650982066600, 398540663933604679347300, 400650892011650982066600, 400920663933604679347300, 404091114719405030656700,
  405031114719405030656700, 405990559882567952439600, 406350967388831219704700, 406431114719405030656700, 406441114719405030656700,
  406571001872879848877500, 406640642707311863960400, 406701215879496198504700, 406720938620623974526500, 406920773095879127987000,
  407630925462988195654600, 407780698831096694689400, 407840698831096694689400, 408100967388831219704700, 408420967388831219704700]

def emitE1_0 : List Nat := [
  200370926662618298677500, 200810987276198655709000, 200980987276198655709000, 204150470797601263357600, 204190765718827055267400,
  204610926662618298677500, 205810584741029582194100, 207450926662618298677500, 208400246090362956978930, 208521166452145578514500,
  209150435664867502143900, 209980308210247945120040, 209990365582327279661620, 210171027822709466525500, 210330420403114995980800,
  210631027822709466525500, 210690971861130672983200, 211470356012014786353300, 211600388380056966722660, 211710926662618298677500,
  211870769422954223302300, 211930729507360331812400, 212050388380056966722660, 212140926662618298677500, 212200909957209832360900,
  212430752138672939361300, 212480752138672939361300, 213850487442422027124100, 214260487442422027124100, 214750861999901806172300,
  218920587150784740100100, 222660917961480599714500, 227661027822709466525500, 227671027822709466525500, 227680474187756430925800,
  228590852902723985599600, 228651097137427522520000, 228940852902723985599600, 231130895647125468293500, 234540319820059474266440,
  234940495156525510807550, 235260319820059474266440, 240391056590916711703600, 241840763916976504999600, 242130393875001419719340,
  243200305712199648275850, 243350295654262916282340, 243690700108236167307800, 243751166452145578514500, 243781166452145578514500,
  245150495888236092514200, 245370516925589984813700, 245550958507991410531000, 247581097137427522520000, 247940844564563091694400,
  248220852902723985599600, 248470522517108468504700, 248680971861130672983200, 249080753738707074005400, 249360686050041105188900,
  249960971861130672983200, 255090246888871268123700, 256220795094938908083700, 256710795094938908083700, 260290714273287873610500,
  260390714273287873610500, 261020351002128063320300, 261260946729687844892500, 261780351002128063320300, 262341027822709466525500,
  262920946729687844892500, 264341166452145578514500, 264970271450742625088800, 266840358707430645394600, 269970271450742625088800,
  271780987276198655709000, 272430987276198655709000, 274911056590916711703600, 276681166452145578514500, 276831166452145578514500,
  277700435664867502143900, 288720730781262909555400, 289820239846259505261860, 293781056590916711703600, 293840680470905142347250,
  294370680470905142347250, 294670844564563091694400, 295750895647125468293500, 297020872008247661870500, 300530661466544853560800,
  301061027822709466525500, 303330917961480599714500, 303430661466544853560800, 304460530321897821215000, 304950394140136351881360,
  305280779332044487725400, 308300336997194064146600, 309060336997194064146600, 310361097137427522520000, 310701166452145578514500,
  311501097137427522520000, 312160775249845035699900, 312810775249845035699900, 313021027822709466525500, 320471005508354335104400,
  320480378902216333993720, 321130987276198655709000, 321470829722562579867000, 322330836868458978081600, 324540378902216333993720,
  324630829722562579867000, 324790987276198655709000, 325310836868458978081600, 328820474187756430925800, 328990655253366742860200,
  329010655253366742860200, 329660490642695135741400, 330391005508354335104400, 330800736045636258097500, 332130490642695135741400,
  332250736045636258097500, 332471005508354335104400, 332881166452145578514500, 335100698239022866092500, 338790779332044487725400,
  349130902546412616988600, 350090694602258449005000, 352010883130811172892800, 352641056590916711703600, 352661056590916711703600,
  354881005508354335104400, 358021005508354335104400, 362910627089390943278300, 364930627089390943278300, 365231166452145578514500,
  365751097137427522520000, 367191097137427522520000, 368431166452145578514500, 368950291732827225821150, 369410310025385698297870,
  369530909957209832360900, 369650909957209832360900, 371971005508354335104400, 373250823053425129999800, 373270692832300739065000,
  382830305712199648275850, 382901166452145578514500, 383861166452145578514500, 383911097137427522520000, 386201166452145578514500,
  387540321453701406235800, 388601166452145578514500, 388871166452145578514500, 395190757017689356304400, 395880757017689356304400]

def emitE3_0 : List Nat := [
  199851018361616933299500, 200470696474034446479400, 200811018361616933299500, 200981018361616933299500, 202600565101667617973900,
  206630565101667617973900, 208400143293313454840330, 209370627159316390484900, 211600857417825689889500, 212050857417825689889500,
  213800769870951954499500, 216960541293154486733000, 229370949046898877305000, 231940678241878767083950, 234500489031134460850200,
  234900657269825668877100, 235060451373524635247500, 235960908500388066488500, 238030652005452320334800, 244710605648178428790300,
  244940599396142730656900, 245820729324441143683000, 246230769870951954499500, 246771018361616933299500, 246941018361616933299500,
  247000615826447859784600, 247091018361616933299500, 247170631241515842510400, 247421018361616933299500, 247731018361616933299500,
  248011018361616933299500, 248070382750850863710350, 248170615826447859784600, 248460704812195340384500, 248630839185670010494000,
  248681018361616933299500, 248840729324441143683000, 249080396701006824813000, 249441018361616933299500, 249961018361616933299500,
  250840382750850863710350, 259430309771470496738340, 262620322042618346275700, 263640857417825689889500, 264201018361616933299500,
  271921018361616933299500, 276020600922889943735800, 276680470297724599100300, 276830470297724599100300, 279641018361616933299500,
  279780908500388066488500, 280920627159316390484900, 281291018361616933299500, 281650949046898877305000, 286090908500388066488500,
  289020360575481161194800, 289090810417462765315800, 290330360575481161194800, 291050810417462765315800, 293840575279937048968100,
  294370575279937048968100, 294670908500388066488500, 297120718788389577900400, 297950718788389577900400, 299830266067525126062400,
  300971018361616933299500, 301060718788389577900400, 301710949046898877305000, 304420404373161710673900, 304620202538625237350200,
  308620839185670010494000, 313510551078733487108900, 314021018361616933299500, 314060551078733487108900, 319291018361616933299500,
  328271018361616933299500, 332680735040282527677800, 335100256634835570464800, 335790949046898877305000, 336330404373161710673900,
  345421018361616933299500, 348751018361616933299500, 359800481297814120533200, 360270839185670010494000, 361010587955107612882500,
  361330309771470496738340, 361530839185670010494000, 361840587955107612882500, 365750949046898877305000, 367190949046898877305000,
  367630908500388066488500, 368280769870951954499500, 368660619463212276872000, 369470949046898877305000, 369600769870951954499500,
  369690619463212276872000, 372400623237245075156700, 372761018361616933299500, 383460700556233898504900, 384200700556233898504900,
  385050256979748452436600, 385700256979748452436600, 385900190062747659039190, 385970839185670010494000, 386270190062747659039190,
  389350654603000960660900, 390470654603000960660900, 393360949046898877305000]

def emitE4_0 : List Nat := [
  199680370790724756294000, 199780781878111173625100, 199790560050312520219950, 199870914320006913805400, 199900778736491550287200,
  199940562155653440003200, 199971166892871344631000, 200100331472515052453480, 200130952886254995004000, 200370669564920589382200,
  200410624177847505530450, 200481041616574495094100, 200611126346360533814600, 201021097578153288636400, 201070503101558878762200,
  201080817242115197983000, 201320577452587918145900, 201350530849016681257900, 201421005949080101221000, 201460833672420327110500,
  201540485988940740333050, 201841126346360533814600, 201950735812958806079550, 202150941763691483981400, 202190608731387276431600,
  202210625505300626400100, 202470831902462617170500, 202480709421773494292650, 202560763468807529391500, 203010745680111556782500,
  203020765254569269392100, 203070598534894610762800, 203130647043168218048400, 203161057031642477820000, 203200794323528620965700,
  203511166892871344631000, 203580616767050290158300, 203791166892871344631000, 204910331472515052453480, 204930958948717176647300,
  205050851192829229619700, 205401236207589400625500, 205420715258974116483400, 206071041616574495094100, 206330660633368041934200,
  206590763468807529391500, 206700715258974116483400, 207290941763691483981400, 207671041616574495094100, 207780709421773494292650,
  207991126346360533814600, 208030738534215158568050, 208090788473907952804900, 208111236207589400625500, 208181126346360533814600,
  208390753376215670395400, 208441126346360533814600, 208490450073409840626600, 208510987716924421825500, 208520429995831125151600,
  208541236207589400625500, 208560547656622397143800, 208690753376215670395400, 208890877855695555014600, 208920748687857080510350,
  208960996418062120788400, 209150952886254995004000, 209190875115798136203000, 209340987716924421825500, 209860987716924421825500,
  209870688143697066426350, 209980936634362045226400, 210101005949080101221000, 210150563944609915080700, 210171166892871344631000,
  210191236207589400625500, 210210621789025988060900, 210330918402206365831000, 210460632420497408411700, 210631166892871344631000,
  210660952886254995004000, 210690708396123477573800, 211030718592616143242600, 211091236207589400625500, 211231005949080101221000,
  211470719159189896810300, 211500812796938940899600, 211530512286092022644900, 211550979712653654471800, 211600506025355186832300,
  211610839178398045413200, 211910886556833253977500, 212050506025355186832300, 212090512286092022644900, 212130849087488309836400,
  212700831902462617170500, 213060733163797261381900, 213071236207589400625500, 213120733163797261381900, 213601057031642477820000,
  213670889633999120652800, 213821236207589400625500, 213870823494150896116400, 214021016485131667003500, 214070843025026128192900,
  214490899478006401978000, 214511236207589400625500, 214530779772770253841900, 214570683662295487447100, 214630910397935598477300,
  214640987716924421825500, 214751016485131667003500, 214761126346360533814600, 214881057031642477820000, 214901097578153288636400,
  214910972301856439099600, 214950744209496817813000, 215120770811554384873200, 215170883571536939009400, 215180720878429950847600,
  215210600944649768668900, 215600947170413611009100, 216190987716924421825500, 216290818768862411061700, 216441236207589400625500,
  216970731221988675671800, 218921075263798157215500, 219430979712653654471800, 221201057031642477820000, 221320979712653654471800,
  222381075263798157215500, 222560843025026128192900, 222601075263798157215500, 222690559819098544382000, 222830559819098544382000,
  222851075263798157215500, 223120522320889406073200, 223200918402206365831000, 223300889633999120652800, 224110298292144859461850,
  224180972301856439099600, 225800889633999120652800, 226960972301856439099600, 227390823494150896116400, 227440972301856439099600,
  227660996418062120788400, 227670996418062120788400, 227680788473907952804900, 227811075263798157215500, 227880936634362045226400,
  227910660633368041934200, 228060600944649768668900, 228101057031642477820000, 228120656601814324088300, 228230417283136827035300,
  228360617792700306877100, 228411236207589400625500, 228461236207589400625500, 228630875115798136203000, 228710697758083121716600,
  228991166892871344631000, 229160864850382730194800, 229181126346360533814600, 229370996418062120788400, 229411126346360533814600,
  229871041616574495094100, 229950733819537315997800, 233800744942100827020300, 233830965402569290404400, 233950733163797261381900,
  234291041616574495094100, 234350896087851234409900, 234470735144059990999900, 234500449804023493380440, 234530808540977499020000,
  234541016485131667003500, 234570947170413611009100, 234750906623902800192600, 234780801827047215257000, 234940790772859775274700,
  235060673445478031561800, 235190661268290809800200, 235210987716924421825500, 235261016485131667003500, 235290947170413611009100,
  235310877855695555014600, 235420808540977499020000, 235480669911541387030900, 235511075263798157215500, 235531236207589400625500,
  235560794323528620965700, 235600914320006913805400, 235660669911541387030900, 235670410080774342860700, 235740979712653654471800,
  236131097578153288636400, 236180594208096585911250, 236211166892871344631000, 236220691965818348446150, 236260691965818348446150,
  236460664176411739884300, 236520594208096585911250, 236600664176411739884300, 237000952886254995004000, 240380877855695555014600,
  240521126346360533814600, 240660798004925933237350, 241020952886254995004000, 241180952886254995004000, 241200500197192101710300,
  241240941763691483981400, 241330743482220884905050, 241490899478006401978000, 241510941763691483981400, 241781166892871344631000,
  241790649844471840815800, 241800910397935598477300, 241851166892871344631000, 241870947170413611009100, 242130875115798136203000,
  242200828453845010053600, 242300711505182184576900, 243140841083217542482800, 243350408288611681125200, 243391126346360533814600,
  243520936634362045226400, 243730936634362045226400, 243750720878429950847600, 243780720878429950847600, 244180578979335131224700,
  244250728067152902179200, 244410630529188077763100, 244520751788880754766350, 244591016485131667003500, 244600720878429950847600,
  244650751788880754766350, 244710872448973427986900, 244940857788626008799300, 245150663849079205387400, 245550972301856439099600,
  246130883571536939009400, 246150397453591081688850, 246350845005288857810800, 246870546134522996108300, 248470809939601696494000,
  248590703906591486784700, 248630803134255371992400, 248951236207589400625500, 251010847025559589562800, 251040657211572310900100,
  251050896087851234409900, 251120668532209173797300, 251360668532209173797300, 251510927103344064793900, 251630698679748632209000,
  251760833672420327110500, 252060860087577831269300, 252090883571536939009400, 252200922658167807710500, 252391236207589400625500,
  252691126346360533814600, 253110748687857080510350, 255090532680729472515900, 255110644318203973310850, 255120941763691483981400,
  255520744942100827020300, 256220811358065195689600, 256580877855695555014600, 256710811358065195689600, 258020688143697066426350,
  258360748687857080510350, 258840877855695555014600, 259180860087577831269300, 259280604130759975567200, 259350877855695555014600,
  260090914320006913805400, 260251166892871344631000, 260281166892871344631000, 260320536814291878306500, 260410716911904311604400,
  260800771768499486488200, 260850634105254465672900, 260870800536706731666400, 261020413898534284472100, 261310862440627572288700,
  261430914320006913805400, 261780413898534284472100, 262220739226259443025400, 262340899478006401978000, 262620914320006913805400,
  263541028263435232641900, 263770297761416180145750, 263950877855695555014600, 263990328070590332703200, 264081057031642477820000,
  264120607236032309725800, 264150965402569290404400, 264260492900054510767500, 264340845005288857810800, 264381028263435232641900,
  264630906623902800192600, 264650965402569290404400, 264690616767050290158300, 264970910397935598477300, 265251236207589400625500,
  265790875115798136203000, 266460632420497408411700, 266570744209496817813000, 266790826773133178415300, 266800906623902800192600,
  266841097578153288636400, 267230599560544627481700, 267511028263435232641900, 267810965402569290404400, 267971236207589400625500,
  268030899478006401978000, 268370952886254995004000, 268650860087577831269300, 268660632420497408411700, 269890562155653440003200,
  269970910397935598477300, 270481075263798157215500, 271381041616574495094100, 271690458806081675552800, 271710826773133178415300,
  272310492900054510767500, 272840599560544627481700, 274250623520670989207000, 274540731865077708700800, 274911041616574495094100,
  275111236207589400625500, 275151016485131667003500, 275311236207589400625500, 275420880672783251684200, 275441236207589400625500,
  276020902987138383105000, 276110828453845010053600, 276630818768862411061700, 276870825120202983294400, 277000644857288836798500,
  277700952886254995004000, 278331057031642477820000, 278610539040728928046500, 278730910397935598477300, 279150655393340402581100,
  279270782947640085299900, 279660635572273440452200, 279690566504164633977100, 279781166892871344631000, 279820965402569290404400,
  280141057031642477820000, 280230899478006401978000, 281450623739250311205050, 281511041616574495094100, 281650605215761577973850,
  282010851192829229619700, 282870886556833253977500, 283040828453845010053600, 283100987716924421825500, 283310851192829229619700,
  283421028263435232641900, 286091166892871344631000, 286290886556833253977500, 286390965402569290404400, 287790753376215670395400,
  287840875115798136203000, 288571075263798157215500, 288611126346360533814600, 288720958948717176647300, 288950914320006913805400,
  289030839178398045413200, 289071075263798157215500, 289091126346360533814600, 289381057031642477820000, 289610771768499486488200,
  289820454445045095288600, 290170914320006913805400, 290871166892871344631000, 291051126346360533814600, 291181126346360533814600,
  291230768924705954434900, 291380839178398045413200, 291451075263798157215500, 291510485219283285134100, 291900910397935598477300,
  292330703906591486784700, 292550883571536939009400, 292560767072801177711100, 292600706375852745821800, 292890972301856439099600,
  293660690249037986209600, 293760690249037986209600, 295750678992186182849000, 296150752579398705477700, 296450691533852233994500,
  296771097578153288636400, 298720752579398705477700, 299230918402206365831000, 299830433101571376563700, 299860530849016681257900]

def emitE4_1 : List Nat := [
  299920435337771101772600, 300020497560504517636100, 300050661907270619677200, 300111236207589400625500, 300280704395590016203900,
  300311041616574495094100, 300411005949080101221000, 300591236207589400625500, 303320683662295487447100, 303330663849079205387400,
  303400628903135990585050, 303820883571536939009400, 304270768924705954434900, 304331097578153288636400, 304461097578153288636400,
  304521236207589400625500, 304560734479605719133000, 304950777710841533568300, 305241097578153288636400, 305260831902462617170500,
  307190762587744561175900, 307221075263798157215500, 307320843025026128192900, 308610886556833253977500, 310010886556833253977500,
  310140762587744561175900, 310360918402206365831000, 311050889633999120652800, 311431041616574495094100, 311500918402206365831000,
  311690811358065195689600, 311741075263798157215500, 311810559588417934590500, 311850860087577831269300, 311861126346360533814600,
  312370941763691483981400, 312401075263798157215500, 312430575542570780803950, 312460941763691483981400, 312780559588417934590500,
  313540875115798136203000, 314350556973146653544600, 314710772734690577661900, 315610433950694701800000, 316390965402569290404400,
  316491166892871344631000, 316651097578153288636400, 316800947170413611009100, 316870644587383139882000, 317350914320006913805400,
  318210807161645285786400, 318670547963842300840700, 318691028263435232641900, 318960987716924421825500, 319290737846927229791800,
  319831126346360533814600, 319950584884578309394800, 320050559588417934590500, 320110851192829229619700, 320260324056673573668800,
  320330687727896051560000, 320430972301856439099600, 320480910397935598477300, 320681236207589400625500, 321130927103344064793900,
  321141166892871344631000, 321470576356686539174000, 321600701021776053018800, 321771166892871344631000, 322180666834375520355500,
  322270918402206365831000, 322320965402569290404400, 322390662550359652706300, 322990886556833253977500, 323170845005288857810800,
  323400679373139024515800, 323611236207589400625500, 323960902987138383105000, 324180559588417934590500, 324230324056673573668800,
  324280662550359652706300, 324341166892871344631000, 324410851192829229619700, 324420687727896051560000, 324470666834375520355500,
  324521236207589400625500, 324540910397935598477300, 324550679373139024515800, 324630576356686539174000, 324790927103344064793900,
  324930902987138383105000, 324991236207589400625500, 325110701021776053018800, 325340965402569290404400, 325360918402206365831000,
  325410886556833253977500, 325680941763691483981400, 325921097578153288636400, 325990889633999120652800, 326450889633999120652800,
  326810624177847505530450, 327010902987138383105000, 327640996418062120788400, 327910947170413611009100, 328440758295240089472600,
  328820788473907952804900, 328870758295240089472600, 329050749454144355067250, 329180828453845010053600, 329301057031642477820000,
  329371166892871344631000, 329721005949080101221000, 329880849087488309836400, 329900749454144355067250, 330141166892871344631000,
  330210567372118005949300, 330501166892871344631000, 331080771768499486488200, 331341126346360533814600, 331360987716924421825500,
  331391166892871344631000, 331841166892871344631000, 332181005949080101221000, 332880429995831125151600, 332900800536706731666400,
  332921236207589400625500, 333241166892871344631000, 333940483428190628481100, 334100947170413611009100, 334570803134255371992400,
  335211041616574495094100, 336090914320006913805400, 336550947170413611009100, 338290485219283285134100, 339050674167502828910500,
  339761236207589400625500, 340130729948086097928800, 340850674167502828910500, 341800972301856439099600, 342530729948086097928800,
  342551166892871344631000, 343890936634362045226400, 343990744209496817813000, 347010785121638748940500, 348800860087577831269300,
  348920532504827931997850, 348990965402569290404400, 349131005949080101221000, 349151075263798157215500, 349170742760196087556300,
  349200864850382730194800, 349660886556833253977500, 350130645127924996572800, 350141028263435232641900, 350360742760196087556300,
  350370645127924996572800, 351261057031642477820000, 351670972301856439099600, 351681028263435232641900, 352010161184063238840450,
  352150735812958806079550, 352220612570630380255000, 352420833672420327110500, 352680735812958806079550, 352700612570630380255000,
  352820872448973427986900, 353021028263435232641900, 353201028263435232641900, 353280791942463751593800, 353591097578153288636400,
  353730936634362045226400, 355860789616777535167100, 356721097578153288636400, 356760927103344064793900, 356950931755345628283200,
  357120851192829229619700, 357220987716924421825500, 357721097578153288636400, 357740936634362045226400, 357821097578153288636400,
  357930931755345628283200, 358350851192829229619700, 358590789616777535167100, 358890927103344064793900, 360070896087851234409900,
  360110711505182184576900, 360310987716924421825500, 360390872448973427986900, 360740489871284848623400, 361360489871284848623400,
  361390896087851234409900, 361430711505182184576900, 361520987716924421825500, 361640872448973427986900, 362151236207589400625500,
  362751057031642477820000, 363350867319643989231900, 363940947170413611009100, 364200996418062120788400, 365230782947640085299900,
  365540739226259443025400, 365560759990195920849800, 366170610249442994133200, 366501041616574495094100, 367100739226259443025400,
  367120759990195920849800, 367181041616574495094100, 367330610249442994133200, 367710972301856439099600, 367740812796938940899600,
  367791236207589400625500, 367821236207589400625500, 367860748687857080510350, 367930674894778761818500, 368271126346360533814600,
  368280733163797261381900, 368480367261148164956450, 368730814256818883014900, 368840615751813143756400, 368950828453845010053600,
  368960629133816600376500, 369141126346360533814600, 369200906623902800192600, 369600733163797261381900, 369630796762673933381650,
  369840814256818883014900, 370020674894778761818500, 370960906623902800192600, 372211028263435232641900, 372911236207589400625500,
  373250571698492450061100, 373270696844834765389400, 373290808540977499020000, 373410896087851234409900, 374671016485131667003500,
  375040875115798136203000, 375501236207589400625500, 375610845005288857810800, 376791126346360533814600, 378320947170413611009100,
  380141236207589400625500, 380240896087851234409900, 380851016485131667003500, 381340875115798136203000, 381420947170413611009100,
  381520845005288857810800, 381691126346360533814600, 382630767994466688203600, 382710767994466688203600, 382720958948717176647300,
  382810826773133178415300, 383640987716924421825500, 383760958948717176647300, 383810826773133178415300, 384500681299980911103550,
  384510918402206365831000, 384690625505300626400100, 385051236207589400625500, 385250918402206365831000, 385340931755345628283200,
  385550625505300626400100, 385561016485131667003500, 385701236207589400625500, 385900872448973427986900, 386200845005288857810800,
  386270872448973427986900, 386321075263798157215500, 386510661907270619677200, 386841236207589400625500, 387380851192829229619700,
  387540513078888967864000, 388990886556833253977500, 389131097578153288636400, 389140845005288857810800, 389170558556890163407200,
  389360892808868952111000, 389570617792700306877100, 389710652143423663285700, 389890527868804638096000, 390001236207589400625500,
  390060547963842300840700, 390291097578153288636400, 390300845005288857810800, 390330558556890163407200, 390460892808868952111000,
  390570652143423663285700, 390690527868804638096000, 391311166892871344631000, 391341166892871344631000, 391350906623902800192600,
  391510987716924421825500, 391660996418062120788400, 391920647043168218048400, 392011236207589400625500, 392770987716924421825500,
  392800996418062120788400, 393011236207589400625500, 393210902987138383105000, 395111041616574495094100, 395641041616574495094100,
  396360598534894610762800, 396400679755548668356200, 397460875115798136203000, 398540965402569290404400, 400920965402569290404400,
  406430629596780390250700, 406440629596780390250700, 406570818768862411061700, 406701075263798157215500, 407631166892871344631000,
  407860886556833253977500, 408010724408208158950000, 408310886556833253977500, 408360724408208158950000]

def emitE6_0 : List Nat := [
  199810825251187572559000, 199880294636119220203600, 200260277930340255214300, 200400662193965121751700, 200430510902938944273400,
  200460942150496115550000, 201100272996416999050150, 201650397841107236735900, 201960773394926945744700, 201970305326417418322800,
  202940504456938897577000, 203510446854291928808860, 203580571098633193808250, 204150531165621239743400, 206770397841107236735900,
  208090702360968835712900, 208130643519190951800100, 208540422976412709193300, 209170582762323566384300, 209600933189280246581300,
  210170485455598798760700, 210630485455598798760700, 213330805892712665292500, 214500289290762811952200, 214530803521060003561000,
  214820872835778059555500, 215180371616120593234630, 219340805892712665292500, 228060318807510849272060, 228560865313435935796700,
  229140647706598198905950, 234250882679785340880800, 235270882679785340880800, 241900933189280246581300, 244030752126484893337500,
  244600371616120593234630, 244661219409368339528000, 245970625655747831285500, 247990793141380635396600, 251100683280151768585600,
  260440272996416999050150, 261020283283642610223800, 261590210250961462251100, 261780283283642610223800, 263520999686910605906200,
  263770481539771434606840, 264110590530618679883800, 264690571098633193808250, 265240280330851463800400, 274250504614109853310660,
  274920301215278594079640, 278410582762323566384300, 288580277930340255214300, 289820294843443129474400, 294200962914432593374400,
  295440962914432593374400, 300700752126484893337500, 304750889825681739095300, 304950879289630173312600, 305280456508979374232400,
  316490363931573165177300, 327730396564980039124750, 327800310552554334901000, 329431150094650283533500, 332670534981082736871800,
  332680606941029250107600, 335090525969647346672300, 338790456508979374232400, 352010414052451426074100, 352110711579974082521100,
  352650711579974082521100, 353280740244393046457200, 354410919836140984129000, 354980460324155970670000, 355420449379847997516450,
  356110999686910605906200, 357620999686910605906200, 357700449379847997516450, 358050919836140984129000, 358280460324155970670000,
  368070333807388620409060, 368480781833666173499500, 369420333807388620409060, 387500613147194197097100, 387540425671898723198600,
  406360662193965121751700]

def emitE7_0 : List Nat := [
  199680698421875140959400, 199690932285498279564200, 199770750403871218007450, 199780463639651659354500, 199790590078001611193150,
  199810470773446595438300, 199880756325262520211900, 199900990811320134440300, 200050863605702991435600, 200060824126438169696300,
  200100725615246689323600, 200130619398696449568200, 200260423956545505038500, 200300611979985024228000, 200370750403871218007450,
  200400598299450187679500, 200430653534647064702800, 200460417124769172412800, 200540921496602078445700, 200630607356045759225100,
  200810784297805531580500, 200980784297805531580500, 201020818291449863468600, 201070867502299844773900, 201100481729534921426800,
  201110782583477832936700, 201140557947535651128900, 201230748976731807474100, 201341138971774226861700, 201650569329562201870900,
  201700562798087435186100, 201740817484993879795700, 201970498813227551627800, 202140856833885585940500, 202151039646596925833500,
  202470866186491387022900, 202480959795827304056300, 203011208286492282856300, 203030751228618161009100, 203070706691046725470800,
  203090909718298512807300, 203150609792159271084700, 203551060126038190434800, 203580401571588291845800, 203630767858767921986200,
  204150621074713335314800, 204451174639268620735000, 204910725615246689323600, 204930823271732111850500, 204980713268759776942200,
  205050714408373250029200, 205590719854899541097700, 205720652141435675015800, 205990737875478898556800, 206070784010035548819000,
  206770569329562201870900, 206870884811574880407300, 207291039646596925833500, 207670784010035548819000, 207780959795827304056300,
  207990646029250359790550, 208080451531244296803500, 208130653301093046509900, 208180646029250359790550, 208390835958404199729400,
  208440997873076855835500, 208490672911284939242600, 208520887202126965762600, 208540483806614185692100, 208601120739618547466400,
  208690835958404199729400, 208730868835652931720400, 208770518718222508069500, 208871299915565470271900, 209341022656693246293700,
  209601060126038190434800, 209610809018401438296300, 209980448808114429465800, 209990961476539135694400, 210100980048253715203700,
  210180548517366719133800, 210210612910224290459300, 210290367548659741953280, 210350367548659741953280, 210510523273875668306300,
  210690831240548172220400, 210830548517366719133800, 210950701144815647244900, 211230980048253715203700, 211270701144815647244900,
  211470529592226406317400, 211520489445218633161000, 211600577914764933459600, 211611005471667553627800, 211701091971411302288300,
  211830718651877513443500, 211851091971411302288300, 211910881710551206151300, 212050577914764933459600, 212180718651877513443500,
  212470891317934215113400, 212540860470650003028000, 212701369230283526266400, 213220737333472151622900, 213330839899801053817200,
  213630484021007178553500, 213821008138492261844000, 214021036009832508746000, 214570630088760058730600, 214750777879982962439300,
  214760713410503245039500, 214771161286129358282800, 214821064778039753924200, 214870680271152690819800, 214881138971774226861700,
  215121091971411302288300, 215160494972859759202500, 215171047342701039446300, 215180454917121297993100, 215210602748704997692900,
  216190778150619122213700, 216290780342487692978300, 218450941563671624660800, 218831138971774226861700, 219161019579527379618400,
  219340839899801053817200, 220390778150619122213700, 220681120739618547466400, 221960863605702991435600, 222420866186491387022900,
  222610934849741340898000, 222790934849741340898000, 222960866186491387022900, 223120475824311301382000, 223200574144797754267600,
  223300734842240113633300, 223430900095495303352000, 223590717610975921970000, 223621299915565470271900, 225301149507825792644400,
  225331299915565470271900, 225800734842240113633300, 226020717610975921970000, 227680521613999340441800, 227880563714510344298500,
  227970594039750218405400, 228060660139301318268100, 228100571639447509712500, 228120667479669232140800, 228230579947730901154600,
  228250706956651131282400, 228360734491362560665400, 228560701019423781285500, 229090462191442371392650, 229520990811320134440300,
  229870970331878869839000, 230591149507825792644400, 233761002874118913301700, 233831129440756246429300, 234500382066721217571770,
  234540477660201630576100, 234780788716786634617500, 235260477660201630576100, 235450431061759720615900, 235531138971774226861700,
  235580554501457655603950, 235590554501457655603950, 235650431061759720615900, 235670618956462450781300, 235690487396855171048900,
  235720701900486749501000, 235810778150619122213700, 236010602234083978908700, 236130723553317969050000, 236181022656693246293700,
  236490846655616154946200, 236500846655616154946200, 236521022656693246293700, 240291259369054659455300, 240370980048253715203700,
  240390776537680929225300, 240500550778908222894300, 240520909718298512807300, 241021120739618547466400, 241091085908949120644700,
  241181120739618547466400, 241200366553626656636440, 241330456861027001215400, 241800545191771974632900, 241820824126438169696300,
  241840917051425821362400, 241880730710843626493800, 241901060126038190434800, 242120790847765293292600, 242130554907608489522000,
  242300429291358574310000, 242370966695114452751400, 242480942962295822134800, 243351091971411302288300, 244020878702805682423400,
  244030527958166544313700, 244480524167688811854000, 244590696726919309582100, 244600454917121297993100, 244640869509056149855000,
  244710546172561811620900, 244780817484993879795700, 244940604738349030380700, 245150654395709136259600, 245170510130171670170600,
  245370560804872895534600, 245550477244846307099650, 245730945819633066540500, 245761080193107736649900, 245970589173018059201400,
  246150652295281859206400, 246180765443191534052600, 246351039646596925833500, 246880724183241311848750, 247080704202378667524200,
  247630923795553900915700, 247730781456705348302450, 248400766885524230163100, 248470529029605365554400, 248680913842594366212200,
  248710932285498279564200, 248950837909685622087600, 249100879446303531175200, 249300597272884600308300, 249960913842594366212200,
  250330790847765293292600, 250791080193107736649900, 251041299915565470271900, 251051112735347780112800, 251100880195370704091000,
  251301161286129358282800, 251421036009832508746000, 251431036009832508746000, 251630610956434634825300, 251650702534604283345750,
  251711299915565470271900, 252090830323110544616200, 252690877232190943453800, 254631149507825792644400, 254900892161821079700000,
  257200892161821079700000, 259250842961264635777900, 259540478645165405464300, 259680767614567556431000, 259720706691046725470800,
  259760767614567556431000, 260090819104462471793800, 260121299915565470271900, 260290442529861616894000, 260320494717757580042000,
  260390442529861616894000, 260410748774507269397400, 260440481729534921426800, 260801022656693246293700, 260850650238066451685600,
  260860531967309503777900, 260870659310109170957100, 260890513051876051855200, 261020422832850497427250, 261260657024295363352100,
  261310674725177153682900, 261321190054336603461000, 261430893012890046490800, 261590357527772155756100, 261780422832850497427250,
  262020784875841823130400, 262470881710551206151300, 262630723239838088512900, 263660633283519700704300, 263680907718231842140400,
  263760834519530454519500, 263770728872863732784900, 263990443269622198356300, 264100502668963872815300, 264120658405869553112300,
  264260600110273773980100, 264351174639268620735000, 264651016594231064650200, 264690401571588291845800, 266391032500700527619000,
  266790501810589503676100, 266810986366143877356900, 267811016594231064650200, 270100578759892138891700, 271690956516845021757200,
  271710501810589503676100, 272310600110273773980100, 273961032500700527619000, 274021174639268620735000, 274250484063940989588650,
  274910484021007178553500, 274920451087647345112300, 274930382563488086507240, 275111008138492261844000, 275120878702805682423400,
  275131120739618547466400, 275150753744474124624600, 275990836442666647308300, 276041190054336603461000, 276680903834248510514000,
  276830903834248510514000, 277940830780777247357500, 278090830780777247357500, 278610652218329181303600, 278670995463321697929600,
  279630807190196954551500, 279691013695477377325100, 281450666943474918002200, 281760454650098442405250, 283040974105911668123700,
  283101022656693246293700, 283851259369054659455300, 284151259369054659455300, 284720454650098442405250, 288570550862625264200640,
  288580423956545505038500, 288950938823774205849500, 289611022656693246293700, 289820293369807328720040, 290170938823774205849500,
  292460701900486749501000, 292820787519167529946000, 293590961476539135694400, 294080735018141654151250, 294200642268608565449500,
  295440642268608565449500, 295751064778039753924200, 297021019579527379618400, 299780997873076855835500, 299830725615246689323600,
  299920638913278402586400, 300010745202699009189400, 300530858635736136208300, 300580815103929010423800, 300700527958166544313700,
  300970606232712823487400, 301490948761021587169800, 301710963185982471624400, 303320630088760058730600, 303330853324753604813500,
  303400530544614557443000, 303431161286129358282800, 304100594773302590816800, 304240866186491387022900, 304330723553317969050000,
  304360866186491387022900, 304520416656795226816450, 304560565185595395955400, 304950791775128971825600, 305240627893549956742400,
  305260866186491387022900, 305280899182246947024800, 305290862339863304243300, 305550876504915010546000, 305560862339863304243300,
  306361091971411302288300, 307210765443191534052600, 308300663440489785080700, 308601008138492261844000, 309060663440489785080700,
  309080765443191534052600, 311050630521259960590700, 311630958142897108935200, 311691064778039753924200, 312150760099295318496500,
  312320892161821079700000, 312430882476838480708100, 312450758527994752041000, 313090760099295318496500, 313500771341707036154200,
  313510817084191740041800, 313540885602092831118500, 314060817084191740041800, 314460862970780223569600, 314541369230283526266400,
  314550506894944801803600, 314710891317934215113400, 314781369230283526266400, 315080882476838480708100, 315321138971774226861700,
  315580882476838480708100, 315610790847765293292600, 316390661143493857188200, 316491369230283526266400, 318950978027982983451800,
  319290795250992308342900, 320040564351455172846500, 320260864887771834341700, 320270546894393578340600, 320320901017160813844400,
  320390554212356558033800, 320480784010035548819000, 320660468285540566587100, 321130801897956809117000, 321470297844077644393000]

def emitE7_1 : List Nat := [
  322020554212356558033800, 322330697934663458559400, 322441299915565470271900, 323171039646596925833500, 323800611979985024228000,
  323960606038632219141200, 324220564351455172846500, 324230864887771834341700, 324390546894393578340600, 324511299915565470271900,
  324540784010035548819000, 324560468285540566587100, 324630297844077644393000, 324790801897956809117000, 324870611979985024228000,
  324930606038632219141200, 325310697934663458559400, 326541016594231064650200, 327641259369054659455300, 327800571776999113243500,
  328190844527876310217700, 328820521613999340441800, 329020784586406020493900, 329370906733002197839300, 329430864244682801312600,
  329660982110182435477300, 330161149507825792644400, 330210710200178706597800, 330300688547347487048700, 330411208286492282856300,
  330501098425263416045400, 330800692380962361403450, 331261208286492282856300, 331360922639471660808000, 331391098425263416045400,
  331510990811320134440300, 332130982110182435477300, 332250692380962361403450, 332580522535086028317300, 332670444130048156759100,
  332680613901622966224500, 332880887202126965762600, 332890611979985024228000, 332900659310109170957100, 333240825422352633946800,
  333941138971774226861700, 335091259369054659455300, 335100767614567556431000, 336090896491501655032300, 336550958142897108935200,
  337070859855263445590100, 338790899182246947024800, 343890563714510344298500, 344070782583477832936700, 345620944380759321330600,
  348920603643881764660700, 349350884027257134304600, 349460903834248510514000, 350131208286492282856300, 350371208286492282856300,
  350410771341707036154200, 352010469527945378295500, 352110826295720630822200, 352580680373037569730100, 352650826295720630822200,
  352730680373037569730100, 353281039646596925833500, 353360898277263395033000, 353770469342450982685300, 354221029110545360050800,
  354420819924139192211500, 354880964925156742811300, 354980846119421840807600, 355241074786385609622400, 356720944380759321330600,
  357450898277263395033000, 357680469342450982685300, 357820944380759321330600, 357891029110545360050800, 358020964925156742811300,
  358130819924139192211500, 358280846119421840807600, 358461074786385609622400, 359180862970780223569600, 360110791155931947033400,
  360271005471667553627800, 360391208286492282856300, 361430791155931947033400, 361531005471667553627800, 361641208286492282856300,
  362151008138492261844000, 362340520145361918602860, 362350716580797569187400, 362640716580797569187400, 362750845055582020302200,
  365230738238455703614700, 366001208286492282856300, 366110434002896739781450, 366260865535023284903500, 366290627292225234397200,
  367241208286492282856300, 367310627292225234397200, 367390434002896739781450, 367400865535023284903500, 367930505626051000804560,
  368070684535969567728400, 368170684748735605440100, 368280528024796196973200, 368300630583198643277000, 368310772615609613897200,
  368430630027126774807300, 368450910733535659209200, 368840738602754831464800, 368901032500700527619000, 368950479448382575190700,
  368990630583198643277000, 369420684535969567728400, 369470545959682540168800, 369600528024796196973200, 369780772615609613897200,
  370020505626051000804560, 371170581604395295943700, 373240771341707036154200, 373250878702805682423400, 373270634050296620488750,
  373411091971411302288300, 380241091971411302288300, 382631138971774226861700, 382711138971774226861700, 382720556283307047843400,
  382910748774507269397400, 383760556283307047843400, 383880748774507269397400, 384311299915565470271900, 384500901017160813844400,
  385381299915565470271900, 385531043420629724118200, 385900691011077925587300, 386260958142897108935200, 386270691011077925587300,
  387500669288036775470300, 387540539600572262015700, 389141369230283526266400, 389150900095495303352000, 389171008138492261844000,
  389200431729584173124700, 389570734491362560665400, 389710728542284919334900, 389891120739618547466400, 390000837909685622087600,
  390150756325262520211900, 390301369230283526266400, 390310900095495303352000, 390331008138492261844000, 390350431729584173124700,
  390380756325262520211900, 390570728542284919334900, 390691120739618547466400, 393181149507825792644400, 393400771088862400818350,
  395320771088862400818350, 396360706691046725470800, 396400866842231441638800, 406360598299450187679500, 406640764021366633824700,
  406700550862625264200640, 407780653378883793334350, 407840653378883793334350, 407861174639268620735000, 408311174639268620735000]

def emitE8_0 : List Nat := [
  352010000000000000000000]

def emitE10_0 : List Nat := [
  202490286439627149290400, 215680065302718677052000, 216280255766600407042870, 217040250260622688740140, 217270137466632312477130,
  219380137466632312477130, 220750652795791762255000, 226220652795791762255000, 228210286439627149290400, 391440491852000518845100,
  392550491852000518845100]

def emitE12_0 : List Nat := [
  199780280537925898922860, 199790307288537928153200, 199960584108796082787600, 200130386663162986620100, 201950812420771903381800,
  203580302662129072634800, 203910408369613510402800, 205960408369613510402800, 207991059713817777510200, 208181059713817777510200,
  208390415847266002901800, 208690415847266002901800, 210690276728051589665900, 212710386953538115922500, 213220843217446265710500,
  213350403894037496283400, 214940819924290497673200, 215180181995716978178330, 215210659762771822384050, 216080529099437497760200,
  222600404157809587941500, 222850404157809587941500, 228050628538073894777800, 228060377198841145712830, 228360476567472417255460,
  236180632047205875904700, 236520632047205875904700, 237360522185977009093800, 241801005814167704241600, 244600181995716978178330,
  260410356413572575614100, 260490552464652776121500, 263990298501321249628140, 264110924721146082608700, 264690302662129072634800,
  264810584108796082787600, 275730633849056426172550, 277430669372354688355650, 280230451361548624917300, 282160494515037630863200,
  282460898770026534100300, 314710575633137622533500, 322180654411176488373300, 322270743710285292983550, 324470654411176488373300,
  325360743710285292983550, 327641184990114627047000, 332670871440693034132000, 338650819924290497673200, 349030797870013536258000,
  350410674395567236989000, 351990577340634997791300, 352820643380074406605000, 363350787960923271834900, 367930346042769645660400,
  368070954731605327642500, 368170366902020427408140, 368281014515305403204500, 369130529099437497760200, 369380494515037630863200,
  369411115675396571052500, 369420954731605327642500, 369601014515305403204500, 370020346042769645660400, 370960216279878430409000,
  373240674395567236989000, 382910234450594751309400, 383880234450594751309400, 384690516779254882066200, 385330851769663609526600,
  385550516779254882066200, 387540270255382362221000, 389570476567472417255460, 393180770676641987893800, 405950610529667709401500]

def emitE14_0 : List Nat := [
  203020000000000000000000]

def emitE15_0 : List Nat := [
  199680681685372133680800, 199690862135221634229300, 199750637819054381904850, 199760736858924784692500, 199770660644919580002800,
  199780568708626488890400, 199790482672770513145300, 199821187944875436377500, 199851118630157380383000, 199900621996653860415400,
  199921118630157380383000, 199940640298520243226400, 199971078083646569566600, 200040764534224976651500, 200050741354063570919100,
  200130727427856837568400, 200161078083646569566600, 200251049315439324388400, 200260555329928120867600, 200270545134348167917900,
  200290858361188835944600, 200300641561694933816500, 200370691660412410386800, 200410588051219241709200, 200430528093972574926000,
  200440948155348156540400, 200460693780633175447100, 200470851215292437730000, 200480652759062088770800, 200560816587668765946800,
  200630743679749787345800, 200641118630157380383000, 200650698160895441286400, 200700841371285156404800, 200810571403090013235550,
  200980571403090013235550, 201020816587668765946800, 201050714325030596927900, 201070516164405934008400, 201080605050313675356800,
  201111008768928513572000, 201130690963545478777400, 201161049315439324388400, 201170870139492401583000, 201290628102679536540000,
  201300862135221634229300, 201320661159059530044700, 201350757538366115960600, 201390968222417702755500, 201421118630157380383000,
  201460712585856325741050, 201540507372620094679000, 201610673195427755032200, 201630883492631664035200, 201660811824863867021300,
  201670802930115265371700, 201700858361188835944600, 201740639051102820708900, 201790866057292949557400, 201810980000721268393900,
  201830968222417702755500, 201850910686003212399300, 201950679185241913139100, 201960785409706362862600, 201970819056930024984000,
  202021049315439324388400, 202150712585856325741050, 202190765994104918766800, 202390656624277532198800, 202400832410069287436200,
  202410743679749787345800, 202470632262069266423800, 202480802930115265371700, 202500712585856325741050, 202560698160895441286400,
  202600746060814656717800, 202610874395453843462500, 202620878840630100545900, 202800957686366136973000, 203010957686366136973000,
  203020844546154987863000, 203030706726439899135800, 203070694497482123308350, 203081187944875436377500, 203090559345065985491000,
  203130698909962614202100, 203141118630157380383000, 203150847825137270161900, 203160645010312540933400, 203510778510419214167500,
  203580514485709439082700, 203601008768928513572000, 203630735766017731473450, 203790814177913608040700, 203810980000721268393900,
  203910751000090189675350, 203991008768928513572000, 204150883492631664035200, 204301078083646569566600, 204310883492631664035200,
  204320819056930024984000, 204390701191430390819300, 204490662717532631714500, 204571049315439324388400, 204611078083646569566600,
  204800874395453843462500, 204861049315439324388400, 204890866057292949557400, 204930814177913608040700, 204980748499959969133700,
  205060844546154987863000, 205111118630157380383000, 205180862135221634229300, 205230878840630100545900, 205400809525912044551400,
  205420980000721268393900, 205510752273992767418300, 205700768979401233735000, 205880898907699646761000, 205960751000090189675350,
  205980742510145811026800, 205991078083646569566600, 206070757538366115960600, 206250948155348156540400, 206330752273992767418300,
  206450870139492401583000, 206550898907699646761000, 206580866057292949557400, 206590698160895441286400, 206630746060814656717800,
  206671027001084192967500, 206700980000721268393900, 206930811824863867021300, 207250939454210457577500, 207290712585856325741050,
  207361049315439324388400, 207451078083646569566600, 207540888371648080978500, 207670757538366115960600, 207780802930115265371700,
  207950870139492401583000, 207990851215292437730000, 208031049315439324388400, 208060821588710823412800, 208080748499959969133700,
  208090761676887732245960, 208110866057292949557400, 208130697417397592534500, 208180851215292437730000, 208200854724424418857000,
  208260888371648080978500, 208340688223648059966000, 208370637411721843141250, 208390939454210457577500, 208400677958232653957700,
  208410764534224976651500, 208430734684926121052000, 208440789046470779950050, 208451187944875436377500, 208460924039142474851600,
  208481187944875436377500, 208490811824863867021300, 208510676145494194702000, 208521187944875436377500, 208530689584213265543900,
  208551118630157380383000, 208560904623541030756000, 208571078083646569566600, 208590854724424418857000, 208601118630157380383000,
  208610724471976613413900, 208690939454210457577500, 208740957686366136973000, 208760957686366136973000, 208770780191131045805500,
  208890776857489019046400, 208910756196064082746500, 208921027001084192967500, 208960917139855326156500, 209000924039142474851600,
  209120814177913608040700, 209140649495369157468600, 209150669766520407169000, 209171187944875436377500, 209190829592981590766600,
  209230841371285156404800, 209280734684926121052000, 209321187944875436377500, 209341118630157380383000, 209370878840630100545900,
  209410841371285156404800, 209430768979401233735000, 209450980000721268393900, 209550773631402797224200, 209560773631402797224200,
  209600680427493912994800, 209610893500977519733500, 209640858361188835944600, 209730854724424418857000, 209860531700466067005500,
  209870622695957409512500, 209910829592981590766600, 209920854724424418857000, 209950870139492401583000, 209980743679749787345800,
  209990659118172366924000, 210090910686003212399300, 210170851215292437730000, 210180844546154987863000, 210210910686003212399300,
  210290650881072623611300, 210330649037702454727400, 210350650881072623611300, 210400654672996109840600, 210460883492631664035200,
  210480993353860530846200, 210510622345694354392300, 210630851215292437730000, 210690655157258557419400, 210720832410069287436200,
  210730770506148446813800, 210781078083646569566600, 210830844546154987863000, 210850957686366136973000, 210930957686366136973000,
  211020832410069287436200, 211031078083646569566600, 211060835308822974761400, 211281078083646569566600, 211330770506148446813800,
  211470523957292053723900, 211500816587668765946800, 211510704316684741229700, 211520783639748652922500, 211530832410069287436200,
  211600485925804605185000, 211610790915684081165350, 211630826853084171955100, 211701078083646569566600, 211710667544206728698000,
  211830633427130988421300, 211851078083646569566600, 211870601866253089791000, 211910720661991990186900, 211931027001084192967500,
  212050485925804605185000, 212090832410069287436200, 212130618235526785837000, 212140667544206728698000, 212180633427130988421300,
  212201078083646569566600, 212530816587668765946800, 212540948155348156540400, 212700705113501706147400, 212710697417397592534500,
  212800870139492401583000, 212941187944875436377500, 212971187944875436377500, 213061078083646569566600, 213071008768928513572000,
  213121078083646569566600, 213130692362169676251400, 213150794762312163945000, 213191078083646569566600, 213220811824863867021300,
  213260753564333251009100, 213290866057292949557400, 213300787211556913130400, 213340917139855326156500, 213380910686003212399300,
  213441187944875436377500, 213501078083646569566600, 213511118630157380383000, 213551078083646569566600, 213591008768928513572000,
  213600854724424418857000, 213610690963545478777400, 213630917139855326156500, 213650910686003212399300, 213671008768928513572000,
  213751078083646569566600, 213811027001084192967500, 213850698909962614202100, 213880819056930024984000, 214001008768928513572000,
  214020716991855305144100, 214070760278263534772000, 214101187944875436377500, 214140829592981590766600, 214210819056930024984000,
  214260698909962614202100, 214350591586941074532900, 214500577020117159940950, 214510776857489019046400, 214520832410069287436200,
  214530728432890422918500, 214570497570149677917700, 214620866057292949557400, 214630736858924784692500, 214640594455455874418700,
  214651027001084192967500, 214671118630157380383000, 214750641561694933816500, 214760893500977519733500, 214770802930115265371700,
  214820968222417702755500, 214830687550244841831600, 214870643271138269746500, 214880968222417702755500, 214900888371648080978500,
  214910968222417702755500, 214940814177913608040700, 214950939454210457577500, 214961027001084192967500, 214970753564333251009100,
  215050690271501194320100, 215070917139855326156500, 215120609870523857144600, 215130752273992767418300, 215141078083646569566600,
  215160535295389479298500, 215170598229488672703450, 215180618908930003971500, 215190748499959969133700, 215200693068886398560700,
  215210698160895441286400, 215251078083646569566600, 215311008768928513572000, 215341118630157380383000, 215350980000721268393900,
  215361049315439324388400, 215420760278263534772000, 215480691660412410386800, 215611078083646569566600, 215641078083646569566600,
  215701078083646569566600, 215740643703104384198200, 215760851215292437730000, 215780878840630100545900, 215890910686003212399300,
  215921078083646569566600, 216081118630157380383000, 216190645449873688237200, 216280767475613497280900, 216290572459066034735700,
  216440728432890422918500, 216460805080735787468000, 216930783639748652922500, 216971187944875436377500, 217041027001084192967500,
  217050917139855326156500, 217090719731752723955500, 217130858361188835944600, 217291078083646569566600, 217410826853084171955100,
  217540870139492401583000, 217960866057292949557400, 218110844546154987863000, 218281078083646569566600, 218390739081238463163500,
  218540858361188835944600, 218801027001084192967500, 218920763095351231441600, 218971008768928513572000, 218980862135221634229300,
  219051008768928513572000, 219120819056930024984000, 219131118630157380383000, 219140866057292949557400, 219160723505785522240250,
  219171008768928513572000, 219470650881072623611300, 220220753564333251009100, 220360910686003212399300, 220631027001084192967500,
  220651027001084192967500, 220661187944875436377500, 220680824186259463739000, 220700883492631664035200, 221200847825137270161900,
  221211187944875436377500, 221220939454210457577500, 221241118630157380383000, 221580841371285156404800, 221960741354063570919100,
  222180841371285156404800, 222251027001084192967500, 222350664834013750918800, 222380757538366115960600, 222400800824774345588400,
  222420780191131045805500, 222560798762845625314800, 222660742510145811026800, 222690671466278044026100, 222700715206093565143400,
  222760878840630100545900, 222780854724424418857000, 222830671466278044026100, 222910854724424418857000, 222940715206093565143400]

def emitE15_1 : List Nat := [
  222960780191131045805500, 223030710876412989811100, 223071049315439324388400, 223120658614392963928300, 223200457157597360006900,
  223300809525912044551400, 223510705113501706147400, 223520708365820876703400, 223590878840630100545900, 223621049315439324388400,
  223680724471976613413900, 223720931449939690223900, 224180866057292949557400, 224321027001084192967500, 224340910686003212399300,
  224350917139855326156500, 224780749742211968989400, 225300794762312163945000, 225331049315439324388400, 225641049315439324388400,
  225700781900574381735600, 225751187944875436377500, 225770798762845625314800, 225800809525912044551400, 225810993353860530846200,
  226020878840630100545900, 226090939454210457577500, 226120968222417702755500, 226150765994104918766800, 226221049315439324388400,
  226351049315439324388400, 226450858361188835944600, 226590735766017731473450, 226751008768928513572000, 226810841371285156404800,
  226840724471976613413900, 226860770506148446813800, 226960904623541030756000, 227210684249615195014550, 227370910686003212399300,
  227440866057292949557400, 227500705113501706147400, 227560866057292949557400, 227630705113501706147400, 227660645449873688237200,
  227670645449873688237200, 227680582735958543935800, 227710910686003212399300, 227810841371285156404800, 227880633037266946855500,
  227910752273992767418300, 227970736858924784692500, 228050709195701158172900, 228060561224820582241300, 228100723505785522240250,
  228120688223648059966000, 228180742510145811026800, 228230605050313675356800, 228250548085381982856750, 228270854724424418857000,
  228290844546154987863000, 228330615913697775636300, 228360641561694933816500, 228390816587668765946800, 228420790915684081165350,
  228500993353860530846200, 228520924039142474851600, 228550671466278044026100, 228560787211556913130400, 228590957686366136973000,
  228630939454210457577500, 228640993353860530846200, 228690854724424418857000, 228710904623541030756000, 228900790915684081165350,
  228940957686366136973000, 228990727427856837568400, 229040819056930024984000, 229090764534224976651500, 229140798762845625314800,
  229190888371648080978500, 229200824186259463739000, 229370594985961097388000, 229470980000721268393900, 229710910686003212399300,
  229740948155348156540400, 229870772056567100410350, 229920898907699646761000, 229950722548840420625200, 230140819056930024984000,
  230390789046470779950050, 230410754871541407744400, 230461049315439324388400, 230470993353860530846200, 230940883492631664035200,
  231000993353860530846200, 231101187944875436377500, 231300993353860530846200, 231420888371648080978500, 231590893500977519733500,
  231670980000721268393900, 231860893500977519733500, 231940910686003212399300, 232290824186259463739000, 232330878840630100545900,
  233041049315439324388400, 233051027001084192967500, 233080993353860530846200, 233760619247339802395500, 233800824186259463739000,
  233830756196064082746500, 233840719731752723955500, 233850776857489019046400, 233890893500977519733500, 233980832410069287436200,
  234030776857489019046400, 234160832410069287436200, 234250751000090189675350, 234311008768928513572000, 234320725447594107950400,
  234330557866295970053100, 234470841371285156404800, 234500591074119437840900, 234520644136944544057900, 234530657118105696257000,
  234540585358278053846100, 234560866057292949557400, 234580746060814656717800, 234590765994104918766800, 234600910686003212399300,
  234621078083646569566600, 234661078083646569566600, 234750768979401233735000, 234780673778519786111600, 234810743679749787345800,
  234850931449939690223900, 234860858361188835944600, 234870870139492401583000, 234900835308822974761400, 234940814177913608040700,
  234951049315439324388400, 235001008768928513572000, 235040878840630100545900, 235060811824863867021300, 235170870139492401583000,
  235180878840630100545900, 235210957686366136973000, 235220870139492401583000, 235260585358278053846100, 235270751000090189675350,
  235280832410069287436200, 235310776857489019046400, 235320931449939690223900, 235360893500977519733500, 235410866057292949557400,
  235420657118105696257000, 235441187944875436377500, 235450680427493912994800, 235470980000721268393900, 235480835308822974761400,
  235510841371285156404800, 235530931449939690223900, 235560893500977519733500, 235580706726439899135800, 235590706726439899135800,
  235620883492631664035200, 235630980000721268393900, 235650680427493912994800, 235660835308822974761400, 235670980000721268393900,
  235690677958232653957700, 235720811824863867021300, 235760858361188835944600, 235781078083646569566600, 235880870139492401583000,
  235911187944875436377500, 235961049315439324388400, 236010682320294901546700, 236080898907699646761000, 236100695219506920657100,
  236130586329159466542200, 236140617566627970757400, 236160829592981590766600, 236210844546154987863000, 236221078083646569566600,
  236240775231436931868300, 236261078083646569566600, 236271078083646569566600, 236290898907699646761000, 236331118630157380383000,
  236370739081238463163500, 236460957686366136973000, 236480957686366136973000, 236530931449939690223900, 236600957686366136973000,
  236650572459066034735700, 236810993353860530846200, 237250734684926121052000, 237311078083646569566600, 237360957686366136973000,
  237550968222417702755500, 237890980000721268393900, 238491187944875436377500, 238961027001084192967500, 239380910686003212399300,
  239921027001084192967500, 239940734684926121052000, 240290878840630100545900, 240341078083646569566600, 240370760278263534772000,
  240390844546154987863000, 240430893500977519733500, 240460816587668765946800, 240490633427130988421300, 240500667544206728698000,
  240520968222417702755500, 240550710876412989811100, 240621027001084192967500, 240660761676887732245960, 240670699664683177740400,
  240720744863195552046200, 240801027001084192967500, 240840980000721268393900, 240910993353860530846200, 240920725447594107950400,
  240930874395453843462500, 241020924039142474851600, 241070744863195552046200, 241090878840630100545900, 241151027001084192967500,
  241180924039142474851600, 241200612687611553814200, 241320819056930024984000, 241330993353860530846200, 241590725447594107950400,
  241780734684926121052000, 241790630729472218601000, 241800694497482123308350, 241840910686003212399300, 241850734684926121052000,
  241870878840630100545900, 241880809525912044551400, 241890917139855326156500, 241900680427493912994800, 241910796742574893562900,
  241980824186259463739000, 242070838294119289729500, 242080829592981590766600, 242120693780633175447100, 242130652759062088770800,
  242140898907699646761000, 242201027001084192967500, 242230764534224976651500, 242300653234122364630650, 242310948155348156540400,
  242370731510056289593900, 242581187944875436377500, 242640829592981590766600, 242651078083646569566600, 242900764534224976651500,
  242910796742574893562900, 243000829592981590766600, 243071027001084192967500, 243200686881346026751950, 243220622695957409512500,
  243230776857489019046400, 243300716094988306868100, 243390858361188835944600, 243410968222417702755500, 243471027001084192967500,
  243510878840630100545900, 243520737963908403351000, 243580844546154987863000, 243670980000721268393900, 243690824186259463739000,
  243730737963908403351000, 243750744863195552046200, 243770805080735787468000, 243780744863195552046200, 243801027001084192967500,
  243920805080735787468000, 243980980000721268393900, 244020645891375509148900, 244030662195338233599350, 244051187944875436377500,
  244180734684926121052000, 244250641561694933816500, 244280851215292437730000, 244320792820503578234800, 244330658113138781573900,
  244410948155348156540400, 244440747272950709952200, 244480615586365241139400, 244490917139855326156500, 244520866057292949557400,
  244530553030976298397700, 244590780191131045805500, 244600618908930003971500, 244650866057292949557400, 244660760278263534772000,
  244710580640422026337000, 244780639051102820708900, 244900968222417702755500, 244940697417397592534500, 245010917139855326156500,
  245030674365031731351300, 245150492767658996486400, 245170798762845625314800, 245240789046470779950050, 245250775231436931868300,
  245350668649190347356500, 245360716094988306868100, 245370670896475932562400, 245450689584213265543900, 245510668649190347356500,
  245540939454210457577500, 245550733615397209377100, 245611118630157380383000, 245650993353860530846200, 245740851215292437730000,
  245760754871541407744400, 245770709195701158172900, 245940705916718875873800, 245970816587668765946800, 245980883492631664035200,
  246040778510419214167500, 246050668649190347356500, 246090854724424418857000, 246130603590433733241600, 246150858361188835944600,
  246160805080735787468000, 246180606531822253870900, 246431187944875436377500, 246460826853084171955100, 246560714325030596927900,
  246580826853084171955100, 246650767475613497280900, 246741027001084192967500, 246770728432890422918500, 246800785409706362862600,
  246850796742574893562900, 246870599612636587549600, 246940796742574893562900, 246990980000721268393900, 247170898907699646761000,
  247240904623541030756000, 247260939454210457577500, 247311049315439324388400, 247350654672996109840600, 247390688901616758503900,
  247480917139855326156500, 247540781900574381735600, 247600783639748652922500, 247730620269495209549300, 247780577689015975020600,
  247890980000721268393900, 247940787211556913130400, 247960862135221634229300, 248000968222417702755500, 248010796742574893562900,
  248070811824863867021300, 248081049315439324388400, 248130883492631664035200, 248140716991855305144100, 248150792820503578234800,
  248190562754487119788700, 248220783639748652922500, 248260957686366136973000, 248270980000721268393900, 248330948155348156540400,
  248470488459876853070400, 248580957686366136973000, 248590819056930024984000, 248630883492631664035200, 248671078083646569566600,
  248710712585856325741050, 248940851215292437730000, 248950653234122364630650, 249070709195701158172900, 249100709195701158172900,
  249201049315439324388400, 249220883492631664035200, 249310792820503578234800, 249360924039142474851600, 249420641138861322864350,
  249441027001084192967500, 249500824186259463739000, 249620668649190347356500, 249741049315439324388400, 249760778510419214167500,
  249770854724424418857000, 249860716991855305144100, 250101078083646569566600, 250220910686003212399300, 250260893500977519733500,
  250320756196064082746500, 250330693780633175447100, 250420917139855326156500, 250780917139855326156500, 250790754871541407744400]

def emitE15_2 : List Nat := [
  250800917139855326156500, 250840811824863867021300, 250960874395453843462500, 251020910686003212399300, 251030832410069287436200,
  251040595519295694924300, 251050862135221634229300, 251060893500977519733500, 251120594455455874418700, 251190917139855326156500,
  251360594455455874418700, 251380832410069287436200, 251400948155348156540400, 251420628473737476193600, 251430628473737476193600,
  251520731510056289593900, 251590931449939690223900, 251600841371285156404800, 251630649495369157468600, 251650751000090189675350,
  251660883492631664035200, 251710725447594107950400, 251870744863195552046200, 251960617566627970757400, 251980816587668765946800,
  251990878840630100545900, 252000957686366136973000, 252150778510419214167500, 252160858361188835944600, 252260847825137270161900,
  252351187944875436377500, 252370888371648080978500, 252390844546154987863000, 252400723505785522240250, 252520993353860530846200,
  252530798762845625314800, 252730824186259463739000, 252891118630157380383000, 252980898907699646761000, 253000768979401233735000,
  253050824186259463739000, 253070939454210457577500, 253080824186259463739000, 253110851215292437730000, 253170798762845625314800,
  253310798762845625314800, 253420741354063570919100, 253451049315439324388400, 253460773631402797224200, 253510679804438937931200,
  253531187944875436377500, 253760773631402797224200, 253770819056930024984000, 253810854724424418857000, 253870821588710823412800,
  253910716991855305144100, 254020957686366136973000, 254241078083646569566600, 254390821588710823412800, 254420821588710823412800,
  254540883492631664035200, 254631027001084192967500, 254810917139855326156500, 254840670896475932562400, 254990773631402797224200,
  255050687550244841831600, 255070829592981590766600, 255090749742211968989400, 255121008768928513572000, 255130939454210457577500,
  255140571403090013235550, 255160807278626459345500, 255270753564333251009100, 255520841371285156404800, 255580883492631664035200,
  255620617566627970757400, 255630821588710823412800, 255690910686003212399300, 255810993353860530846200, 255820854724424418857000,
  255880821588710823412800, 255970874395453843462500, 256130821588710823412800, 256151118630157380383000, 256220742510145811026800,
  256700824186259463739000, 256710742510145811026800, 257030838294119289729500, 257200717896838857135900, 257470773631402797224200,
  257580809525912044551400, 257930798762845625314800, 257940832410069287436200, 258020622695957409512500, 258030819056930024984000,
  258100898907699646761000, 258180883492631664035200, 258220783639748652922500, 258360851215292437730000, 258420753564333251009100,
  258500824186259463739000, 258510783639748652922500, 258540957686366136973000, 258560870139492401583000, 258800763095351231441600,
  259000874395453843462500, 259030883492631664035200, 259100847825137270161900, 259130870139492401583000, 259150824186259463739000,
  259180683602363744452800, 259190733615397209377100, 259250656132876051955900, 259280672039345514924600, 259320657614384630469900,
  259351078083646569566600, 259370809525912044551400, 259430980000721268393900, 259441027001084192967500, 259450835308822974761400,
  259470807278626459345500, 259491049315439324388400, 259550626267765669720400, 259640700425143116262400, 259680593402814575720000,
  259701187944875436377500, 259730657614384630469900, 259760593402814575720000, 259860807278626459345500, 259870796742574893562900,
  259910761676887732245960, 260011049315439324388400, 260030862135221634229300, 260050862135221634229300, 260070696679386862772350,
  260090619247339802395500, 260230790915684081165350, 260290598229488672703450, 260320635798783650152900, 260390598229488672703450,
  260410611739737158359800, 260450694497482123308350, 260620980000721268393900, 260631027001084192967500, 260800874395453843462500,
  260850551297830663233800, 260860708365820876703400, 260870781900574381735600, 260880980000721268393900, 261020625904788864662500,
  261031187944875436377500, 261060910686003212399300, 261140716991855305144100, 261151187944875436377500, 261241008768928513572000,
  261260589803454310929400, 261270948155348156540400, 261310645010312540933400, 261320939454210457577500, 261430841371285156404800,
  261440829592981590766600, 261490870139492401583000, 261510898907699646761000, 261590573311949669487750, 261780625904788864662500,
  261911078083646569566600, 261940898907699646761000, 261950746060814656717800, 261971118630157380383000, 262021008768928513572000,
  262140809525912044551400, 262230824186259463739000, 262280924039142474851600, 262311187944875436377500, 262340725447594107950400,
  262470772056567100410350, 262481118630157380383000, 262620841371285156404800, 262630816587668765946800, 262741187944875436377500,
  262860939454210457577500, 262920878840630100545900, 263130746060814656717800, 263361187944875436377500, 263480898907699646761000,
  263521187944875436377500, 263560794762312163945000, 263600841371285156404800, 263670910686003212399300, 263710712585856325741050,
  263760674365031731351300, 263770503463327515551200, 263791078083646569566600, 263810733615397209377100, 263910800824774345588400,
  263950686216891754885100, 263971049315439324388400, 263990805080735787468000, 264080697417397592534500, 264110792820503578234800,
  264120819056930024984000, 264150888371648080978500, 264201078083646569566600, 264260673195427755032200, 264290841371285156404800,
  264320821588710823412800, 264340661159059530044700, 264351027001084192967500, 264460957686366136973000, 264480829592981590766600,
  264541027001084192967500, 264630824186259463739000, 264650809525912044551400, 264690514485709439082700, 264720957686366136973000,
  264791187944875436377500, 264800948155348156540400, 264851187944875436377500, 264921078083646569566600, 264951008768928513572000,
  264970770506148446813800, 265120789046470779950050, 265170968222417702755500, 265190765994104918766800, 265240714325030596927900,
  265250807278626459345500, 265311027001084192967500, 265331027001084192967500, 265380844546154987863000, 265501049315439324388400,
  265640948155348156540400, 265790748499959969133700, 265880854724424418857000, 265941027001084192967500, 266090746060814656717800,
  266110910686003212399300, 266120858361188835944600, 266350835308822974761400, 266410948155348156540400, 266470756196064082746500,
  266661187944875436377500, 266790628102679536540000, 266810792820503578234800, 266840733615397209377100, 266900980000721268393900,
  266960883492631664035200, 267050841371285156404800, 267231187944875436377500, 267250883492631664035200, 267290917139855326156500,
  267530898907699646761000, 267751008768928513572000, 267810809525912044551400, 267860898907699646761000, 267900742510145811026800,
  267971118630157380383000, 268200776857489019046400, 268270980000721268393900, 268340838294119289729500, 268391027001084192967500,
  268400939454210457577500, 268470835308822974761400, 269540957686366136973000, 269700883492631664035200, 269890640298520243226400,
  269970770506148446813800, 270040735766017731473450, 270141049315439324388400, 270360957686366136973000, 270531078083646569566600,
  270540772056567100410350, 270850844546154987863000, 270880893500977519733500, 271370917139855326156500, 271380652759062088770800,
  271550735766017731473450, 271710628102679536540000, 271780993353860530846200, 271921078083646569566600, 271930948155348156540400,
  272110883492631664035200, 272310673195427755032200, 272430993353860530846200, 272841187944875436377500, 273310854724424418857000,
  273701027001084192967500, 274021027001084192967500, 274250729448127569320400, 274260835308822974761400, 274420680427493912994800,
  274501187944875436377500, 274680816587668765946800, 274890835308822974761400, 274900641138861322864350, 274910684901083297134000,
  274920746060814656717800, 274930701191430390819300, 274940796742574893562900, 274980756196064082746500, 275060993353860530846200,
  275120645891375509148900, 275130725447594107950400, 275150605640285888075600, 275260917139855326156500, 275300904623541030756000,
  275311187944875436377500, 275380993353860530846200, 275441187944875436377500, 275500993353860530846200, 275730785409706362862600,
  275780821588710823412800, 275800910686003212399300, 275830917139855326156500, 275971078083646569566600, 276020931449939690223900,
  276040701963635000210300, 276090796742574893562900, 276110802930115265371700, 276170841371285156404800, 276270746060814656717800,
  276560841371285156404800, 276650729448127569320400, 276680561035247065751400, 276830561035247065751400, 277000584396732183901900,
  277041078083646569566600, 277130844546154987863000, 277140637006041773579800, 277210883492631664035200, 277430939454210457577500,
  277450851215292437730000, 277480931449939690223900, 277690715206093565143400, 277700669766520407169000, 277840798762845625314800,
  277850798762845625314800, 277881049315439324388400, 277940626632064797570450, 278010829592981590766600, 278090626632064797570450,
  278190917139855326156500, 278270711727481956601900, 278320809525912044551400, 278330792820503578234800, 278350741354063570919100,
  278370948155348156540400, 278381187944875436377500, 278391008768928513572000, 278411187944875436377500, 278491008768928513572000,
  278610601015184123000100, 278740783639748652922500, 278750870139492401583000, 278770883492631664035200, 278800716991855305144100,
  278820883492631664035200, 278880968222417702755500, 279010993353860530846200, 279050948155348156540400, 279150686881346026751950,
  279220893500977519733500, 279270838294119289729500, 279410851215292437730000, 279580715206093565143400, 279630652286247969176300,
  279690613324556382362200, 279730798762845625314800, 279740888371648080978500, 279790668649190347356500, 279820693068886398560700,
  280100699664683177740400, 280141049315439324388400, 280230616242105295755300, 280340765994104918766800, 280410798762845625314800,
  280440723505785522240250, 280530829592981590766600, 280701049315439324388400, 280730993353860530846200, 280790802930115265371700,
  280821008768928513572000, 280920878840630100545900, 281070980000721268393900, 281141187944875436377500, 281220883492631664035200,
  281360734684926121052000, 281391008768928513572000, 281450688901616758503900, 281490931449939690223900, 281540798762845625314800,
  281561118630157380383000, 281650768979401233735000, 281700931449939690223900, 281760993353860530846200, 281800924039142474851600,
  281870768979401233735000, 281890851215292437730000, 282040668649190347356500, 282120778510419214167500, 282160917139855326156500]

def emitE15_3 : List Nat := [
  282180870139492401583000, 282270796742574893562900, 282340980000721268393900, 282460948155348156540400, 282630723505785522240250,
  282710931449939690223900, 282910904623541030756000, 283040743679749787345800, 283101118630157380383000, 283220893500977519733500,
  283570705916718875873800, 283690957686366136973000, 283850754871541407744400, 283891027001084192967500, 284040775231436931868300,
  284150754871541407744400, 284170924039142474851600, 284220931449939690223900, 284310858361188835944600, 284350763095351231441600,
  284360939454210457577500, 284500883492631664035200, 284590870139492401583000, 284720993353860530846200, 284790888371648080978500,
  285000948155348156540400, 285161049315439324388400, 285251078083646569566600, 285260807278626459345500, 285280904623541030756000,
  285440993353860530846200, 285720692362169676251400, 285800993353860530846200, 286390693068886398560700, 286511027001084192967500,
  287340692362169676251400, 287530893500977519733500, 287790617233848961490000, 287810705916718875873800, 287831008768928513572000,
  287840792820503578234800, 287890764534224976651500, 287900893500977519733500, 287970756196064082746500, 287980756196064082746500,
  288100898907699646761000, 288251027001084192967500, 288440851215292437730000, 288450844546154987863000, 288460980000721268393900,
  288470847825137270161900, 288560888371648080978500, 288570781900574381735600, 288580555329928120867600, 288600893500977519733500,
  288660807278626459345500, 288720623754168342566100, 288790948155348156540400, 288910888371648080978500, 288950805080735787468000,
  289020792820503578234800, 289030841371285156404800, 289090676746096600723200, 289211078083646569566600, 289370725447594107950400,
  289540711727481956601900, 289610874395453843462500, 289661118630157380383000, 289820501564536291082100, 290010893500977519733500,
  290040718810087213463200, 290170805080735787468000, 290220821588710823412800, 290310796742574893562900, 290330792820503578234800,
  290870790915684081165350, 291050676746096600723200, 291230841371285156404800, 291281008768928513572000, 291340757538366115960600,
  291380841371285156404800, 291510733615397209377100, 291571187944875436377500, 291650888371648080978500, 292110807278626459345500,
  292260785409706362862600, 292280862135221634229300, 292290714325030596927900, 292330819056930024984000, 292370858361188835944600,
  292381008768928513572000, 292450752273992767418300, 292460811824863867021300, 292540841371285156404800, 292550888371648080978500,
  292600883492631664035200, 292610939454210457577500, 292720939454210457577500, 292730783639748652922500, 292750968222417702755500,
  292820841371285156404800, 292890624109408503003000, 292980858361188835944600, 293011027001084192967500, 293091027001084192967500,
  293560904623541030756000, 293590754871541407744400, 293660731510056289593900, 293760731510056289593900, 293780800824774345588400,
  293990785409706362862600, 294081118630157380383000, 294201049315439324388400, 294250898907699646761000, 294681027001084192967500,
  294860870139492401583000, 294921027001084192967500, 295020883492631664035200, 295031027001084192967500, 295080898907699646761000,
  295441049315439324388400, 295540752273992767418300, 295600724471976613413900, 295630870139492401583000, 295721027001084192967500,
  295770739081238463163500, 295790816587668765946800, 295851078083646569566600, 296150723505785522240250, 296160648582120801141400,
  296421078083646569566600, 296450847825137270161900, 296490780191131045805500, 296640802930115265371700, 296770819056930024984000,
  296940648582120801141400, 297020571824143266869900, 297300904623541030756000, 297480904623541030756000, 297811008768928513572000,
  297881078083646569566600, 297911049315439324388400, 298591078083646569566600, 298630939454210457577500, 298720723505785522240250,
  299030780191131045805500, 299160821588710823412800, 299221049315439324388400, 299260957686366136973000, 299340939454210457577500,
  299400957686366136973000, 299420814177913608040700, 299730939454210457577500, 299780821588710823412800, 299800980000721268393900,
  299830502720618531189700, 299860757538366115960600, 299920679185241913139100, 300000798762845625314800, 300020910686003212399300,
  300030811824863867021300, 300110829592981590766600, 300211187944875436377500, 300280724471976613413900, 300310798762845625314800,
  300410847825137270161900, 300530781900574381735600, 300580910686003212399300, 300590829592981590766600, 300640622695957409512500,
  300700662195338233599350, 300860844546154987863000, 300950866057292949557400, 300970607431378544728700, 301260993353860530846200,
  301300832410069287436200, 301330957686366136973000, 301420878840630100545900, 301490883492631664035200, 301510819056930024984000,
  301570993353860530846200, 301620862135221634229300, 301710844546154987863000, 301960829592981590766600, 302090778510419214167500,
  302410993353860530846200, 302460789046470779950050, 302491078083646569566600, 303060862135221634229300, 303310811824863867021300,
  303320497570149677917700, 303330674365031731351300, 303340743679749787345800, 303400809525912044551400, 303430713451662600052500,
  303530931449939690223900, 303620931449939690223900, 303820816587668765946800, 303850883492631664035200, 303940883492631664035200,
  304080870139492401583000, 304100767475613497280900, 304160883492631664035200, 304230821588710823412800, 304240847825137270161900,
  304270844546154987863000, 304280821588710823412800, 304310816587668765946800, 304330586329159466542200, 304360847825137270161900,
  304420725447594107950400, 304460503356887909972500, 304520917139855326156500, 304560794762312163945000, 304600829592981590766600,
  304620770506148446813800, 304650841371285156404800, 304720775231436931868300, 304730957686366136973000, 304750716094988306868100,
  304950732557186276323400, 304960917139855326156500, 305050772056567100410350, 305191027001084192967500, 305221049315439324388400,
  305240674365031731351300, 305260632262069266423800, 305280924039142474851600, 305290968222417702755500, 305550662717532631714500,
  305560968222417702755500, 305661049315439324388400, 305710721600966025170800, 305721187944875436377500, 305850688223648059966000,
  305890792820503578234800, 306330819056930024984000, 306510883492631664035200, 306820819056930024984000, 306831187944875436377500,
  306900835308822974761400, 306910835308822974761400, 306930514485709439082700, 306970847825137270161900, 307010668649190347356500,
  307070726432823752251500, 307720743679749787345800, 308281008768928513572000, 308300760278263534772000, 308611049315439324388400,
  308620740211193988556900, 308650898907699646761000, 308971187944875436377500, 309060760278263534772000, 309231187944875436377500,
  309281027001084192967500, 309520883492631664035200, 310011049315439324388400, 310280756196064082746500, 310340948155348156540400,
  310360719731752723955500, 310620851215292437730000, 310700613324556382362200, 310710754871541407744400, 310770957686366136973000,
  310800858361188835944600, 310960687550244841831600, 311030980000721268393900, 311050654672996109840600, 311080980000721268393900,
  311170687550244841831600, 311190746060814656717800, 311500719731752723955500, 311630617233848961490000, 311680633818520920534900,
  311690734684926121052000, 311790794762312163945000, 311810729448127569320400, 311850898907699646761000, 311860866057292949557400,
  312270672615715986599700, 312290878840630100545900, 312320783639748652922500, 312370835308822974761400, 312430904623541030756000,
  312460835308822974761400, 312780729448127569320400, 312830841371285156404800, 312931118630157380383000, 313300878840630100545900,
  313370841371285156404800, 313480854724424418857000, 313510644136944544057900, 313540666996260152235450, 313590835308822974761400,
  313611078083646569566600, 313640948155348156540400, 313730854724424418857000, 313831078083646569566600, 313880832410069287436200,
  313910968222417702755500, 313971187944875436377500, 314060644136944544057900, 314181187944875436377500, 314280832410069287436200,
  314290854724424418857000, 314350690271501194320100, 314461078083646569566600, 314560629971892837755300, 314610948155348156540400,
  314690682959274711423800, 314710729448127569320400, 314810684901083297134000, 314870948155348156540400, 314990802930115265371700,
  315050613644556655429250, 315080939454210457577500, 315201187944875436377500, 315320858361188835944600, 315580939454210457577500,
  315610858361188835944600, 315650802930115265371700, 315690829592981590766600, 315740668095172309795000, 315811078083646569566600,
  316090735766017731473450, 316160917139855326156500, 316311078083646569566600, 316390728432890422918500, 316490898907699646761000,
  316551187944875436377500, 316610858361188835944600, 316800732557186276323400, 316871078083646569566600, 316890829592981590766600,
  316911187944875436377500, 316970844546154987863000, 317510841371285156404800, 317770917139855326156500, 317790844546154987863000,
  317831027001084192967500, 318200735766017731473450, 318211187944875436377500, 318580690271501194320100, 318591187944875436377500,
  318670704316684741229700, 318810870139492401583000, 318950838294119289729500, 319030931449939690223900, 319141118630157380383000,
  319180893500977519733500, 319211049315439324388400, 319340816587668765946800, 319661118630157380383000, 319670686216891754885100,
  319750893500977519733500, 320000807278626459345500, 320040888371648080978500, 320050826853084171955100, 320100778510419214167500,
  320131118630157380383000, 320270669766520407169000, 320280767475613497280900, 320320705916718875873800, 320340715206093565143400,
  320430862135221634229300, 320470844546154987863000, 320480796742574893562900, 320640838294119289729500, 320660680427493912994800,
  320800924039142474851600, 320850579722984398732900, 321021118630157380383000, 321130883492631664035200, 321141078083646569566600,
  321470651815658865434950, 321600862135221634229300, 321721118630157380383000, 321780749742211968989400, 321840866057292949557400,
  321870847825137270161900, 321890796742574893562900, 322100824186259463739000, 322180844546154987863000, 322270821588710823412800,
  322321187944875436377500, 322330715206093565143400, 322420835308822974761400, 322440993353860530846200, 322830980000721268393900,
  322990829592981590766600, 323050904623541030756000, 323110761676887732245960, 323260714325030596927900, 323500939454210457577500,
  323611187944875436377500, 323800704316684741229700, 323960658113138781573900, 323990866057292949557400, 324180826853084171955100]

def emitE15_4 : List Nat := [
  324220888371648080978500, 324260807278626459345500, 324290767475613497280900, 324351118630157380383000, 324370904623541030756000,
  324380866057292949557400, 324390669766520407169000, 324470844546154987863000, 324510993353860530846200, 324540796742574893562900,
  324560680427493912994800, 324600838294119289729500, 324630651815658865434950, 324670924039142474851600, 324690939454210457577500,
  324731118630157380383000, 324770579722984398732900, 324790883492631664035200, 324870704316684741229700, 324900824186259463739000,
  324930658113138781573900, 324960796742574893562900, 324991187944875436377500, 325021118630157380383000, 325090847825137270161900,
  325110862135221634229300, 325200835308822974761400, 325310715206093565143400, 325330761676887732245960, 325341187944875436377500,
  325360821588710823412800, 325380980000721268393900, 325410829592981590766600, 325440866057292949557400, 325540714325030596927900,
  325600980000721268393900, 325700816587668765946800, 325930749742211968989400, 326021027001084192967500, 326180684249615195014550,
  326220878840630100545900, 326241027001084192967500, 326290739081238463163500, 326410816587668765946800, 326480816587668765946800,
  326500878840630100545900, 326540718810087213463200, 326760826853084171955100, 326810588051219241709200, 326941078083646569566600,
  326971118630157380383000, 327221118630157380383000, 327361187944875436377500, 327450888371648080978500, 327630874395453843462500,
  327640585842540501424800, 327690693068886398560700, 327730993353860530846200, 327840814177913608040700, 327930980000721268393900,
  328190687550244841831600, 328270728432890422918500, 328310715206093565143400, 328421027001084192967500, 328430778510419214167500,
  328440787211556913130400, 328541049315439324388400, 328580910686003212399300, 328620586329159466542200, 328730939454210457577500,
  328820582735958543935800, 328850939454210457577500, 328870787211556913130400, 328930691660412410386800, 328940778510419214167500,
  329020957686366136973000, 329050765994104918766800, 329150870139492401583000, 329180814177913608040700, 329200802930115265371700,
  329220821588710823412800, 329251078083646569566600, 329280794762312163945000, 329291118630157380383000, 329320898907699646761000,
  329330968222417702755500, 329370924039142474851600, 329480993353860530846200, 329540888371648080978500, 329591078083646569566600,
  329600939454210457577500, 329660631876712334824700, 329720794762312163945000, 329741187944875436377500, 329821008768928513572000,
  329880618235526785837000, 330160832410069287436200, 330210726432823752251500, 330320705916718875873800, 330330705916718875873800,
  330410647227698290365600, 330441118630157380383000, 330500623047451620256900, 330800655643877522536660, 330810939454210457577500,
  330860878840630100545900, 330991187944875436377500, 331041118630157380383000, 331050751000090189675350, 331260647227698290365600,
  331311078083646569566600, 331340821588710823412800, 331360993353860530846200, 331390623047451620256900, 331440794762312163945000,
  331450768979401233735000, 331500660644919580002800, 331670858361188835944600, 331780898907699646761000, 331810878840630100545900,
  332100805080735787468000, 332111078083646569566600, 332130631876712334824700, 332180772056567100410350, 332220893500977519733500,
  332250655643877522536660, 332481118630157380383000, 332510698909962614202100, 332531118630157380383000, 332601008768928513572000,
  332611027001084192967500, 332670656624277532198800, 332680673195427755032200, 332761049315439324388400, 332851187944875436377500,
  332871187944875436377500, 332881187944875436377500, 332890641561694933816500, 332900781900574381735600, 332920655643877522536660,
  332930611425765157893100, 333100666996260152235450, 333110707542770963051800, 333240796742574893562900, 333330854724424418857000,
  333370968222417702755500, 333910829592981590766600, 333920898907699646761000, 333930898907699646761000, 333940478272737586901450,
  333951008768928513572000, 333991008768928513572000, 334020829592981590766600, 334060743679749787345800, 334100732557186276323400,
  334260948155348156540400, 334460993353860530846200, 334570641561694933816500, 334591078083646569566600, 334850866057292949557400,
  334900939454210457577500, 335030764534224976651500, 335090752273992767418300, 335100659118172366924000, 335380800824774345588400,
  335410720661991990186900, 335790968222417702755500, 335861078083646569566600, 335890931449939690223900, 336090794762312163945000,
  336150993353860530846200, 336160924039142474851600, 336180783639748652922500, 336330725447594107950400, 336350772056567100410350,
  336430957686366136973000, 336470715206093565143400, 336600705916718875873800, 336961118630157380383000, 337190752273992767418300,
  337381187944875436377500, 337561049315439324388400, 337750753564333251009100, 337950780191131045805500, 338040993353860530846200,
  338290733615397209377100, 338360637819054381904850, 338530584876349410251200, 338650814177913608040700, 338790924039142474851600,
  339050816587668765946800, 339220948155348156540400, 339451187944875436377500, 339800866057292949557400, 339880841371285156404800,
  339930948155348156540400, 340131008768928513572000, 340741078083646569566600, 340850816587668765946800, 340930957686366136973000,
  341800910686003212399300, 342140924039142474851600, 342180758898931321538400, 342490821588710823412800, 342531008768928513572000,
  342550898907699646761000, 342690829592981590766600, 342770715206093565143400, 343100993353860530846200, 343491187944875436377500,
  343820695946782853565000, 343840917139855326156500, 343850641138861322864350, 343890633037266946855500, 343940767475613497280900,
  343950767475613497280900, 343990939454210457577500, 344021118630157380383000, 344071008768928513572000, 344110980000721268393900,
  344250858361188835944600, 344320980000721268393900, 345030770506148446813800, 345210957686366136973000, 345601008768928513572000,
  345930980000721268393900, 346310898907699646761000, 346330888371648080978500, 346450980000721268393900, 346781118630157380383000,
  347010805080735787468000, 347841118630157380383000, 347960888371648080978500, 348020980000721268393900, 348210898907699646761000,
  348470980000721268393900, 348731187944875436377500, 348800727427856837568400, 348920564700073781325250, 348930924039142474851600,
  348990888371648080978500, 349071078083646569566600, 349090649495369157468600, 349130718810087213463200, 349150854724424418857000,
  349170910686003212399300, 349200851215292437730000, 349280835308822974761400, 349350690963545478777400, 349411187944875436377500,
  349550948155348156540400, 349661078083646569566600, 350090770506148446813800, 350100680427493912994800, 350291118630157380383000,
  350321027001084192967500, 350331187944875436377500, 350360910686003212399300, 350410631492834704108100, 351990814177913608040700,
  352011078083646569566600, 352060781900574381735600, 352110570983802187231950, 352150858361188835944600, 352220821588710823412800,
  352420712585856325741050, 352550701191430390819300, 352580580640422026337000, 352640710032526125224500, 352650570983802187231950,
  352660710032526125224500, 352680858361188835944600, 352700821588710823412800, 352730580640422026337000, 352810701191430390819300,
  352820656132876051955900, 352990650881072623611300, 353280575476536346957100, 353360585842540501424800, 353381027001084192967500,
  353420910686003212399300, 353471078083646569566600, 353520939454210457577500, 353550957686366136973000, 353591049315439324388400,
  353700775231436931868300, 353731008768928513572000, 353800878840630100545900, 354080821588710823412800, 354220643703104384198200,
  354270939454210457577500, 354300757538366115960600, 354331118630157380383000, 354410727427856837568400, 354430742510145811026800,
  354610893500977519733500, 354650866057292949557400, 354690785409706362862600, 354750858361188835944600, 354800924039142474851600,
  354860514843065388169200, 354890980000721268393900, 354920939454210457577500, 354941008768928513572000, 354980615913697775636300,
  355040980000721268393900, 355160980000721268393900, 355190829592981590766600, 355270611112775857000300, 355311118630157380383000,
  355420593927750164334340, 355540910686003212399300, 355591049315439324388400, 355630993353860530846200, 355690768979401233735000,
  355750870139492401583000, 355820968222417702755500, 355840748499959969133700, 355941078083646569566600, 356130637006041773579800,
  356570939454210457577500, 356630854724424418857000, 356720669766520407169000, 356740798762845625314800, 356960601015184123000100,
  357030993353860530846200, 357090866057292949557400, 357121118630157380383000, 357220594455455874418700, 357310756196064082746500,
  357450585842540501424800, 357480785409706362862600, 357490854724424418857000, 357520910686003212399300, 357530756196064082746500,
  357571078083646569566600, 357580601015184123000100, 357591027001084192967500, 357600939454210457577500, 357630768979401233735000,
  357690957686366136973000, 357700593927750164334340, 357721049315439324388400, 357730870139492401583000, 357741008768928513572000,
  357750775231436931868300, 357770939454210457577500, 357820669766520407169000, 357840821588710823412800, 357850878840630100545900,
  357890643703104384198200, 357970757538366115960600, 357991118630157380383000, 358030893500977519733500, 358050727427856837568400,
  358110939454210457577500, 358140742510145811026800, 358160910686003212399300, 358190980000721268393900, 358210514843065388169200,
  358230939454210457577500, 358250924039142474851600, 358280615913697775636300, 358291008768928513572000, 358311118630157380383000,
  358340968222417702755500, 358351118630157380383000, 358410980000721268393900, 358430829592981590766600, 358480611112775857000300,
  358500980000721268393900, 358510748499959969133700, 358541078083646569566600, 358550993353860530846200, 358561049315439324388400,
  358740637006041773579800, 358850798762845625314800, 358950838294119289729500, 359100931449939690223900, 359181078083646569566600,
  359201078083646569566600, 359251187944875436377500, 359370841371285156404800, 359611027001084192967500, 359770948155348156540400,
  359800826853084171955100, 360000765994104918766800, 360010754871541407744400, 360070904623541030756000, 360080866057292949557400,
  360110910686003212399300, 360120858361188835944600, 360181187944875436377500, 360200649037702454727400, 360240780191131045805500,
  360270931449939690223900, 360361008768928513572000, 360370847825137270161900, 360391027001084192967500, 360400931449939690223900]

def emitE15_5 : List Nat := [
  360420924039142474851600, 360510858361188835944600, 360620851215292437730000, 360661049315439324388400, 360670917139855326156500,
  360680993353860530846200, 360740847825137270161900, 360760980000721268393900, 360840824186259463739000, 361060957686366136973000,
  361151027001084192967500, 361270765994104918766800, 361300754871541407744400, 361310858361188835944600, 361321049315439324388400,
  361330980000721268393900, 361340980000721268393900, 361350866057292949557400, 361360847825137270161900, 361390904623541030756000,
  361430910686003212399300, 361450993353860530846200, 361490649037702454727400, 361510780191131045805500, 361530931449939690223900,
  361560924039142474851600, 361580931449939690223900, 361591008768928513572000, 361601187944875436377500, 361631027001084192967500,
  361641027001084192967500, 361650847825137270161900, 361750851215292437730000, 361820824186259463739000, 361900957686366136973000,
  361960778510419214167500, 361980847825137270161900, 362080811824863867021300, 362120731510056289593900, 362130844546154987863000,
  362150589551247367658500, 362340819056930024984000, 362350692362169676251400, 362490844546154987863000, 362590862135221634229300,
  362640692362169676251400, 362750575695594484938900, 362911049315439324388400, 363050968222417702755500, 363210678569855355701300,
  363350621302206625134300, 363390712585856325741050, 363820993353860530846200, 363860811824863867021300, 363940705113501706147400,
  364050898907699646761000, 364200758898931321538400, 364231118630157380383000, 364240760278263534772000, 364701187944875436377500,
  364810939454210457577500, 364931049315439324388400, 365230659624502562578650, 365270870139492401583000, 365301049315439324388400,
  365440870139492401583000, 365540832410069287436200, 365560888371648080978500, 365570756196064082746500, 365750866057292949557400,
  366001187944875436377500, 366110811824863867021300, 366170790915684081165350, 366290765994104918766800, 366370854724424418857000,
  366490870139492401583000, 366640910686003212399300, 366810665909292928545100, 366850709195701158172900, 367100832410069287436200,
  367120888371648080978500, 367160665909292928545100, 367190866057292949557400, 367241187944875436377500, 367310765994104918766800,
  367330790915684081165350, 367390811824863867021300, 367440870139492401583000, 367450854724424418857000, 367550910686003212399300,
  367610709195701158172900, 367630910686003212399300, 367640910686003212399300, 367660681685372133680800, 367671049315439324388400,
  367710805080735787468000, 367740816587668765946800, 367770898907699646761000, 367810681685372133680800, 367830898907699646761000,
  367840980000721268393900, 367850841371285156404800, 367861027001084192967500, 367930931449939690223900, 367980655643877522536660,
  368010796742574893562900, 368070824186259463739000, 368140862135221634229300, 368161008768928513572000, 368200821588710823412800,
  368241027001084192967500, 368270668649190347356500, 368280710876412989811100, 368290805080735787468000, 368300790915684081165350,
  368310832410069287436200, 368340763095351231441600, 368410898907699646761000, 368430734684926121052000, 368450874395453843462500,
  368550851215292437730000, 368570678569855355701300, 368610854724424418857000, 368640841371285156404800, 368670710876412989811100,
  368731078083646569566600, 368740888371648080978500, 368790773631402797224200, 368811078083646569566600, 368840870139492401583000,
  368900642841030079807500, 368911187944875436377500, 368930747272950709952200, 368941118630157380383000, 368950888371648080978500,
  368960924039142474851600, 368980726432823752251500, 368990790915684081165350, 369131118630157380383000, 369140668649190347356500,
  369200802930115265371700, 369301118630157380383000, 369350719731752723955500, 369380917139855326156500, 369391008768928513572000,
  369420824186259463739000, 369430770506148446813800, 369470525140737818424250, 369480655643877522536660, 369490805080735787468000,
  369510832410069287436200, 369560888371648080978500, 369600710876412989811100, 369731078083646569566600, 369780832410069287436200,
  369830796742574893562900, 369841078083646569566600, 369860832410069287436200, 369961027001084192967500, 369990898907699646761000,
  370020931449939690223900, 370090993353860530846200, 370300878840630100545900, 370340841371285156404800, 370510993353860530846200,
  371290698160895441286400, 371680993353860530846200, 371960824186259463739000, 372020866057292949557400, 372211118630157380383000,
  372280968222417702755500, 372331049315439324388400, 372570796742574893562900, 372590748499959969133700, 372660776857489019046400,
  372761118630157380383000, 372911008768928513572000, 372921049315439324388400, 373190687550244841831600, 373221118630157380383000,
  373231118630157380383000, 373240631492834704108100, 373250577242586662152050, 373260716094988306868100, 373270770506148446813800,
  373290760278263534772000, 373360898907699646761000, 373410809525912044551400, 373651078083646569566600, 373890968222417702755500,
  374060893500977519733500, 374280924039142474851600, 374701049315439324388400, 374761049315439324388400, 374920728432890422918500,
  375550819056930024984000, 375590847825137270161900, 376280904623541030756000, 376361187944875436377500, 376481118630157380383000,
  376661187944875436377500, 376700893500977519733500, 376790648582120801141400, 377071027001084192967500, 377821027001084192967500,
  378571008768928513572000, 378601187944875436377500, 379120819056930024984000, 379131008768928513572000, 379410673778519786111600,
  379690728432890422918500, 379870811824863867021300, 380001027001084192967500, 380121078083646569566600, 380150829592981590766600,
  380240809525912044551400, 380250898907699646761000, 380391078083646569566600, 380450968222417702755500, 380470819056930024984000,
  380500904623541030756000, 380531027001084192967500, 380550893500977519733500, 380571049315439324388400, 380651187944875436377500,
  380741049315439324388400, 380810673778519786111600, 380830924039142474851600, 381440847825137270161900, 381451027001084192967500,
  381491027001084192967500, 381600819056930024984000, 381690648582120801141400, 381791078083646569566600, 381811118630157380383000,
  381820893500977519733500, 382101187944875436377500, 382361008768928513572000, 382511008768928513572000, 382590811824863867021300,
  382630585117023413307700, 382710585117023413307700, 382720685556823351749860, 382750826853084171955100, 382830686881346026751950,
  382900781900574381735600, 382910636602000819879250, 383070851215292437730000, 383460758898931321538400, 383560898907699646761000,
  383571187944875436377500, 383581118630157380383000, 383640676145494194702000, 383701049315439324388400, 383760685556823351749860,
  383780826853084171955100, 383820739081238463163500, 383831118630157380383000, 383860781900574381735600, 383880636602000819879250,
  383930893500977519733500, 383950586329159466542200, 384010851215292437730000, 384200758898931321538400, 384220898907699646761000,
  384251187944875436377500, 384310717896838857135900, 384500686216891754885100, 384510957686366136973000, 384530732557186276323400,
  384541049315439324388400, 384590739081238463163500, 384630866057292949557400, 384681008768928513572000, 384690678569855355701300,
  384770739081238463163500, 384980888371648080978500, 384990732557186276323400, 385000841371285156404800, 385050730473777586039200,
  385190874395453843462500, 385250957686366136973000, 385331008768928513572000, 385340866057292949557400, 385380717896838857135900,
  385421049315439324388400, 385430910686003212399300, 385440841371285156404800, 385480870139492401583000, 385531078083646569566600,
  385550678569855355701300, 385680910686003212399300, 385700730473777586039200, 385770841371285156404800, 385900635798783650152900,
  385920898907699646761000, 385930980000721268393900, 385960792820503578234800, 385970739081238463163500, 385980760278263534772000,
  386071187944875436377500, 386130824186259463739000, 386170832410069287436200, 386191187944875436377500, 386200661159059530044700,
  386220794762312163945000, 386260617233848961490000, 386270635798783650152900, 386320596055490009062900, 386340761676887732245960,
  386420690963545478777400, 386430841371285156404800, 386460781900574381735600, 386470794762312163945000, 386540781900574381735600,
  386560910686003212399300, 386601008768928513572000, 386620824186259463739000, 386691027001084192967500, 386840695946782853565000,
  386861187944875436377500, 386950781900574381735600, 387060783639748652922500, 387120883492631664035200, 387220841371285156404800,
  387280764534224976651500, 387380847825137270161900, 387450747272950709952200, 387480747272950709952200, 387500594985961097388000,
  387520775231436931868300, 387530851215292437730000, 387540631492834704108100, 387950910686003212399300, 388290878840630100545900,
  388490980000721268393900, 388730862135221634229300, 388900862135221634229300, 388990768979401233735000, 389110719731752723955500,
  389140854724424418857000, 389180634605926563625500, 389201187944875436377500, 389310917139855326156500, 389360844546154987863000,
  389570641561694933816500, 389881049315439324388400, 389890758898931321538400, 389910931449939690223900, 390000653234122364630650,
  390031049315439324388400, 390060704316684741229700, 390150672615715986599700, 390190968222417702755500, 390241027001084192967500,
  390250917139855326156500, 390300854724424418857000, 390340634605926563625500, 390351187944875436377500, 390380672615715986599700,
  390390917139855326156500, 390450917139855326156500, 390460844546154987863000, 390641049315439324388400, 390680931449939690223900,
  390690758898931321538400, 390721049315439324388400, 390760968222417702755500, 390781027001084192967500, 390800632262069266423800,
  391180632262069266423800, 391310681685372133680800, 391340681685372133680800, 391350679804438937931200, 391381008768928513572000,
  391510800824774345588400, 391540957686366136973000, 391561008768928513572000, 391650924039142474851600, 391780854724424418857000,
  391840917139855326156500, 391861118630157380383000, 391870924039142474851600, 391920698909962614202100, 391940993353860530846200,
  392081049315439324388400, 392500838294119289729500, 392691008768928513572000, 392770800824774345588400, 392780957686366136973000,
  392810924039142474851600, 392841008768928513572000, 392860838294119289729500, 392950924039142474851600, 392971118630157380383000,
  393021049315439324388400, 393180670896475932562400, 393210776857489019046400, 393400597681542096240900, 393470783639748652922500]

def emitE15_6 : List Nat := [
  393480851215292437730000, 394250910686003212399300, 394381187944875436377500, 394461078083646569566600, 394490883492631664035200,
  394720660644919580002800, 394790802930115265371700, 394930851215292437730000, 395091118630157380383000, 395140577689015975020600,
  395221027001084192967500, 395250904623541030756000, 395320597681542096240900, 395350851215292437730000, 395360783639748652922500,
  395370851215292437730000, 395401027001084192967500, 395540739081238463163500, 395561118630157380383000, 395630910686003212399300,
  395691187944875436377500, 395750883492631664035200, 395780802930115265371700, 395791078083646569566600, 395890904623541030756000,
  395920635399581523199150, 396080904623541030756000, 396350917139855326156500, 396360694497482123308350, 396400712585856325741050,
  396991187944875436377500, 397141187944875436377500, 397170696679386862772350, 397190893500977519733500, 397400748499959969133700,
  397460948155348156540400, 397480622345694354392300, 397530957686366136973000, 397580957686366136973000, 397700790915684081165350,
  398540726432823752251500, 399330993353860530846200, 400090917139855326156500, 400600790915684081165350, 400920726432823752251500,
  401070993353860530846200, 401500917139855326156500, 401650829592981590766600, 401790858361188835944600, 401800734684926121052000,
  402301118630157380383000, 402511078083646569566600, 403610811824863867021300, 403720917139855326156500, 404790829592981590766600,
  404810794762312163945000, 404830734684926121052000, 404951118630157380383000, 405111078083646569566600, 405400811824863867021300,
  405480917139855326156500, 405721187944875436377500, 405730883492631664035200, 405751049315439324388400, 405990858361188835944600,
  406350741354063570919100, 406430888371648080978500, 406440888371648080978500, 406570835308822974761400, 406700781900574381735600,
  406800888371648080978500, 407180789046470779950050, 407201078083646569566600, 407230621302206625134300, 407360862135221634229300,
  407630858361188835944600, 407780731510056289593900, 407840731510056289593900, 407860629595244558207600, 408101049315439324388400,
  408310629595244558207600, 408421049315439324388400, 408450783639748652922500, 408570783639748652922500]

def emitE16_0 : List Nat := [
  247390000000000000000000]

def emitE17_0 : List Nat := [
  199680729894718656632300, 199770861556162704822400, 199810882913572734628400, 199851187365816506970600, 199870715515929377461100,
  199900710297354060404100, 199940401540398288367700, 200130537236849452931700, 200501187365816506970600, 200510823607200534332000,
  200610923460083545444700, 200811118051098450976000, 200981118051098450976000, 201051187365816506970600, 201070904044482101349000,
  201080804501676858061100, 201161048736380394981500, 201220729894718656632300, 201260729894718656632300, 201321077504587640159500,
  201350302788090988126160, 201400967643358773348600, 201540715515929377461100, 201701026422025263560500, 201710774652378002461450,
  201950702947107861111400, 202140784830647433455650, 202151187365816506970600, 202250515706339154872800, 202390608369799417245300,
  202400584057194327090500, 202410992774801601439300, 202470800245715416181500, 202480800245715416181500, 202500348771326026342200,
  202660768400342304328000, 203011187365816506970600, 203020938875151528170600, 203030869560433472176000, 203070605061226958668700,
  203160843967096058455900, 203390707786761947296500, 203900826274025242548000, 203920967643358773348600, 204191187365816506970600,
  204200721969781491218200, 204450371829604474157140, 204490521180342452439500, 204620834729764045354400, 205400869560433472176000,
  205510992774801601439300, 205970826274025242548000, 205981026422025263560500, 206050768400342304328000, 206251077504587640159500,
  206480417835503010613900, 206890967643358773348600, 207291187365816506970600, 207780800245715416181500, 207860417835503010613900,
  207990967643358773348600, 208081077504587640159500, 208090979421662338987000, 208180967643358773348600, 208260766896554567874000,
  208370755617005153339500, 208390818477871095577000, 208440678606182983732200, 208480887792589151571400, 208490459158450697624100,
  208511048736380394981500, 208530786632497983723500, 208640802351056335964700, 208690818477871095577000, 208741077504587640159500,
  208761077504587640159500, 208890967643358773348600, 208910415987354847095100, 208920681106313204273900, 208960967643358773348600,
  209180553860391357164700, 209190938875151528170600, 209341118051098450976000, 209980957107307207566000, 210100847246078340755000,
  210150806699567529938700, 210190759699204605365000, 210211187365816506970600, 210330938875151528170600, 210460641833704971200450,
  211030898328640717354000, 211090759699204605365000, 211230847246078340755000, 211471026422025263560500, 211500583340345379229100,
  211521187365816506970600, 211530710297354060404100, 211550857782129906537700, 211711048736380394981500, 211911187365816506970600,
  212080967643358773348600, 212090710297354060404100, 212130992774801601439300, 212141048736380394981500, 212200823607200534332000,
  212530887792589151571400, 212700395685067413210230, 212710739632135059149900, 212950916560796396749600, 213060583578724514756800,
  213070755617005153339500, 213120583578724514756800, 213260595476431079655900, 213270528610815024490900, 213320528610815024490900,
  213330702162790115008800, 213350709453467195817660, 213380861556162704822400, 213451026422025263560500, 213550706147380969728800,
  213671026422025263560500, 213780947576289227133600, 213871008189869584165000, 214071026422025263560500, 214420882913572734628400,
  214430882913572734628400, 214510813598854678633800, 214520904044482101349000, 214530837715060360322600, 214570442299736885816700,
  214640821009651894005900, 214750804501676858061100, 214880802351056335964700, 214901118051098450976000, 214911077504587640159500,
  214960992774801601439300, 215120674375945014663300, 215161026422025263560500, 215180746693891780545300, 215210691783110746844500,
  215780992774801601439300, 215920938875151528170600, 216081026422025263560500, 216440707786761947296500, 216721118051098450976000,
  216970626053005868163600, 217130979421662338987000, 217290938875151528170600, 217460930870880760816800, 217760714627034635736500,
  218060947576289227133600, 218091118051098450976000, 218300686302287097345000, 218540979421662338987000, 218600613708586759051400,
  219340702162790115008800, 220250813598854678633800, 221201077504587640159500, 222350873816394914055600, 222420816008609836539700,
  222530813598854678633800, 222561118051098450976000, 222660873816394914055600, 222690813598854678633800, 222700831831010358029100,
  222830813598854678633800, 222900813598854678633800, 222940831831010358029100, 222960816008609836539700, 223030923460083545444700,
  223200769927089517406850, 223300854145365489450200, 223430335346946467367000, 223631187365816506970600, 224110869560433472176000,
  224781077504587640159500, 225220947576289227133600, 225300746693891780545300, 225770717317779927729000, 225800854145365489450200,
  225810992774801601439300, 226091077504587640159500, 226221048736380394981500, 226590709453467195817660, 226750661096797616482100,
  226811077504587640159500, 227271187365816506970600, 227391008189869584165000, 227661026422025263560500, 227671026422025263560500,
  227710979421662338987000, 228060516924381010559800, 228100923460083545444700, 228230271503222878020200, 228260882913572734628400,
  228701187365816506970600, 228850967643358773348600, 228870967643358773348600, 229090878261571171139000, 229190887792589151571400,
  229960455843977531673200, 231420887792589151571400, 232731026422025263560500, 233950826274025242548000, 233980658539113437517100,
  234160658539113437517100, 234250728869068639913400, 234331077504587640159500, 234500857782129906537700, 234570938875151528170600,
  234580707786761947296500, 234591077504587640159500, 234600957107307207566000, 234660648916310228061600, 234750979421662338987000,
  234850811245804937614200, 235270728869068639913400, 235290938875151528170600, 235310967643358773348600, 235320811245804937614200,
  235480704534442776740500, 235600715515929377461100, 235660704534442776740500, 235670505801817499537400, 235691008189869584165000,
  235741077504587640159500, 236160552626895541369600, 236180850636233508323200, 236210784830647433455650, 236220638886123157905050,
  236260638886123157905050, 236370586239099066554400, 236461008189869584165000, 236520850636233508323200, 236601008189869584165000,
  236651077504587640159500, 237070878261571171139000, 237250923460083545444700, 237920878261571171139000, 237980878261571171139000,
  239940923460083545444700, 240300930870880760816800, 240370552626895541369600, 240650904044482101349000, 240660433942983879561600,
  240720774652378002461450, 240930947576289227133600, 241020967643358773348600, 241070774652378002461450, 241100708616642228765950,
  241180967643358773348600, 241330627153934419000500, 241630904044482101349000, 241710708616642228765950, 241780847246078340755000,
  241790910106944282992500, 241800605061226958668700, 241850847246078340755000, 241880749163153039582400, 241910604765805768925500,
  242110887792589151571400, 242300947576289227133600, 242350887792589151571400, 242371118051098450976000, 242880947576289227133600,
  242910604765805768925500, 243140524297477942733450, 243200892921918590326600, 243351077504587640159500, 243510878261571171139000,
  243750850636233508323200, 243771026422025263560500, 243780850636233508323200, 243921026422025263560500, 244051008189869584165000,
  244330865478234020150500, 244490910106944282992500, 244600746693891780545300, 245010910106944282992500, 245030847246078340755000,
  245550930870880760816800, 245971077504587640159500, 246150850636233508323200, 246350923460083545444700, 247390781321515452328600,
  248000898328640717354000, 248591026422025263560500, 248950979421662338987000, 250100648916310228061600, 251031026422025263560500,
  251120520416007521182700, 251360520416007521182700, 251381026422025263560500, 251420992774801601439300, 251430992774801601439300,
  251510823607200534332000, 251520396416867239594640, 251761077504587640159500, 252160802351056335964700, 252370508468642207753600,
  252500916560796396749600, 252530717317779927729000, 252890861556162704822400, 252961008189869584165000, 253020811245804937614200,
  253040806699567529938700, 253070806699567529938700, 253171048736380394981500, 253510421025050017622600, 254900861556162704822400,
  255050857782129906537700, 255110535894547419717600, 255881077504587640159500, 256540916560796396749600, 257931048736380394981500,
  259030898328640717354000, 259100762516292302034700, 259130635219724720745900, 259190675566435265295100, 259280938875151528170600,
  259450561599057718706700, 259550861556162704822400, 259910784830647433455650, 260320672616368825625250, 260410671460286585517700,
  260490904044482101349000, 260530647098078319742600, 260630804501676858061100, 260800816008609836539700, 260851048736380394981500,
  260860910106944282992500, 260870759699204605365000, 260920923460083545444700, 261020763955166047244650, 261181048736380394981500,
  261430947576289227133600, 261490744284136622639200, 261590892921918590326600, 261780763955166047244650, 261850530417674465541000,
  261870530417674465541000, 262221118051098450976000, 262300979421662338987000, 262341048736380394981500, 263710348771326026342200,
  263771008189869584165000, 263810904044482101349000, 263970723892917684007000, 263990455048744712623600, 264080930870880760816800,
  264150861556162704822400, 264260784830647433455650, 264341187365816506970600, 264350644431253611526500, 264481048736380394981500,
  264791026422025263560500, 264801077504587640159500, 264951026422025263560500, 264970947576289227133600, 265190662138473702307600,
  265240821009651894005900, 266121187365816506970600, 266310594940236765517400, 266570543750779670027800, 266900749163153039582400,
  266960857782129906537700, 267040882913572734628400, 267051077504587640159500, 267230967643358773348600, 267751026422025263560500,
  268160578461328962286000, 268250850636233508323200, 269890401540398288367700, 269970947576289227133600, 271610594940236765517400,
  271690878261571171139000, 272310784830647433455650, 272840967643358773348600, 272980578461328962286000, 274020644431253611526500,
  274310697581836511879400, 274540745481755727310800, 274720697581836511879400, 274940792241444648827800, 275310878261571171139000,
  275440878261571171139000, 275731118051098450976000, 275800979421662338987000, 275970923460083545444700, 276020861556162704822400,
  276040261433717087190140, 276650898328640717354000, 276680788467411850543200, 276830788467411850543200, 277000737384849473944100,
  277190916560796396749600, 277210619690436280142350, 277430706963712033644900, 277730502459188243624850, 277840873816394914055600]

def emitE17_1 : List Nat := [
  278180774652378002461450, 278270724868535178543500, 278330640559802393457500, 278350957107307207566000, 278610692489827469153800,
  279051048736380394981500, 279410740775004641512250, 279540677990796426294400, 279690726848797908161400, 279790916560796396749600,
  279820979421662338987000, 279930637239995452497900, 280060743100690857938950, 280200957107307207566000, 280230773052343867817300,
  281420534278053734382000, 281510930870880760816800, 281651077504587640159500, 281800726848797908161400, 281890979421662338987000,
  282010967643358773348600, 282040916560796396749600, 282070910106944282992500, 282160669750843249587650, 282460882913572734628400,
  282480887792589151571400, 283041026422025263560500, 283101118051098450976000, 283310967643358773348600, 283850751694933838011450,
  283960774652378002461450, 284150751694933838011450, 284170726848797908161400, 284500619690436280142350, 285001048736380394981500,
  285950650768215004785400, 286390979421662338987000, 287791187365816506970600, 287841118051098450976000, 288460808946853115144500,
  288571118051098450976000, 289610816008609836539700, 290280695367723924158100, 290310735186958802066600, 291901008189869584165000,
  292291187365816506970600, 292331026422025263560500, 292541077504587640159500, 292600957107307207566000, 292870628267118455884900,
  292890558394259416070900, 293050967643358773348600, 294200865478234020150500, 295181187365816506970600, 295440865478234020150500,
  295750768400342304328000, 295771077504587640159500, 296160904044482101349000, 296641026422025263560500, 296771008189869584165000,
  296940904044482101349000, 296990904044482101349000, 297020632069858014808800, 299760693918423193901400, 299830700612371461412300,
  299860302788090988126160, 300000916560796396749600, 300020979421662338987000, 300031187365816506970600, 300050413169026524902100,
  300280823607200534332000, 300440816008609836539700, 300861118051098450976000, 301031118051098450976000, 301490938875151528170600,
  301511048736380394981500, 302741118051098450976000, 303320442299736885816700, 303340723892917684007000, 303580736279865855285550,
  304100938875151528170600, 304170831831010358029100, 304310465915375091856200, 304350831831010358029100, 304520655553817122548900,
  304650536936999153306000, 305260800245715416181500, 305630992774801601439300, 307010930870880760816800, 307071077504587640159500,
  307190675566435265295100, 307211008189869584165000, 307400790336625151758400, 308280763955166047244650, 309081008189869584165000,
  309131077504587640159500, 310140675566435265295100, 310380689005154336136900, 311051187365816506970600, 311690910106944282992500,
  311810804501676858061100, 311850625325729935255600, 312160947576289227133600, 312370617992602626700600, 312430957107307207566000,
  312460617992602626700600, 312780804501676858061100, 312810947576289227133600, 312911187365816506970600, 312931187365816506970600,
  312950992774801601439300, 313511048736380394981500, 313540722926726592833300, 313611187365816506970600, 314061048736380394981500,
  314490826274025242548000, 314560992774801601439300, 314611187365816506970600, 314710826274025242548000, 316090507907158419320700,
  316361077504587640159500, 316390904044482101349000, 316490552977773094337500, 316800816008609836539700, 318200507907158419320700,
  318210869560433472176000, 319180605654700510650100, 319750605654700510650100, 320000992774801601439300, 320040555830016354737100,
  320260816008609836539700, 320330437589646444713700, 320341026422025263560500, 320680923460083545444700, 320800916560796396749600,
  321130740775004641512250, 321430802351056335964700, 321470624964065888236800, 321561118051098450976000, 321731048736380394981500,
  321781008189869584165000, 322180567112264788178300, 322320758319872392131400, 322330923460083545444700, 323020668627235922895100,
  323051026422025263560500, 323170923460083545444700, 323400794183253234538000, 324220555830016354737100, 324230816008609836539700,
  324260992774801601439300, 324371026422025263560500, 324420437589646444713700, 324470567112264788178300, 324520923460083545444700,
  324550794183253234538000, 324630624964065888236800, 324670916560796396749600, 324790740775004641512250, 324850802351056335964700,
  325001048736380394981500, 325081118051098450976000, 325310923460083545444700, 325340758319872392131400, 325530668627235922895100,
  325931008189869584165000, 326521077504587640159500, 326540597376081148721400, 326760763955166047244650, 327640892921918590326600,
  327690790336625151758400, 327710861556162704822400, 327730781321515452328600, 328440796163515964156000, 328520543271162443678500,
  328790543271162443678500, 328870796163515964156000, 329051187365816506970600, 329291008189869584165000, 329461048736380394981500,
  329600347795487124117830, 329880992774801601439300, 330081187365816506970600, 330210388817380833588300, 330810347795487124117830,
  331511187365816506970600, 332580930870880760816800, 332900759699204605365000, 333220402005335197186900, 333370717317779927729000,
  334020916560796396749600, 334100816008609836539700, 336181118051098450976000, 336470658539113437517100, 336550923460083545444700,
  337750595476431079655900, 339931187365816506970600, 340920808946853115144500, 342550656045218602791800, 342690916560796396749600,
  342770658539113437517100, 343490887792589151571400, 348801187365816506970600, 348920268229675969132600, 348990861556162704822400,
  349070706147380969728800, 349170967643358773348600, 350101118051098450976000, 350130798183786695907900, 350360967643358773348600,
  350370798183786695907900, 350440938875151528170600, 351220938875151528170600, 351990619348555605263850, 352151077504587640159500,
  352220575776603958667200, 352641008189869584165000, 352661008189869584165000, 352681077504587640159500, 352700575776603958667200,
  352820687644589130559100, 352990904044482101349000, 353381077504587640159500, 353470831831010358029100, 353521026422025263560500,
  353700784830647433455650, 353730916560796396749600, 353860837715060360322600, 354130850636233508323200, 354261008189869584165000,
  354300840792226226998000, 354410837715060360322600, 355061187365816506970600, 355190847246078340755000, 355661118051098450976000,
  356110947576289227133600, 356570345739089224342900, 356860529718859602148100, 356951187365816506970600, 356960850636233508323200,
  357120878261571171139000, 357220821009651894005900, 357570831831010358029100, 357580850636233508323200, 357591077504587640159500,
  357601026422025263560500, 357620947576289227133600, 357740916560796396749600, 357750784830647433455650, 357770345739089224342900,
  357800850636233508323200, 357860837715060360322600, 357931187365816506970600, 357970840792226226998000, 358050837715060360322600,
  358101008189869584165000, 358350878261571171139000, 358381187365816506970600, 358430847246078340755000, 359470709453467195817660,
  360000802351056335964700, 360010725853764822844650, 360080823607200534332000, 360121077504587640159500, 360150947576289227133600,
  360240524694041582068100, 360271008189869584165000, 360310539055081361250700, 360390638886123157905050, 360760916560796396749600,
  360921187365816506970600, 360930834729764045354400, 361230693918423193901400, 361270802351056335964700, 361300725853764822844650,
  361311077504587640159500, 361340916560796396749600, 361350823607200534332000, 361411187365816506970600, 361420947576289227133600,
  361510524694041582068100, 361520539055081361250700, 361531008189869584165000, 361640638886123157905050, 361870834729764045354400,
  361950693918423193901400, 362081026422025263560500, 362290882913572734628400, 362340967643358773348600, 362750947576289227133600,
  363281187365816506970600, 363351187365816506970600, 365540739632135059149900, 365551077504587640159500, 365570415987354847095100,
  365750910106944282992500, 366280992774801601439300, 366290967643358773348600, 366500804501676858061100, 366640818477871095577000,
  366810898328640717354000, 367100739632135059149900, 367111077504587640159500, 367160898328640717354000, 367180804501676858061100,
  367190910106944282992500, 367310967643358773348600, 367410992774801601439300, 367550818477871095577000, 367740583340345379229100,
  367860681106313204273900, 367931048736380394981500, 367971187365816506970600, 368160580292043706721600, 368270727853831493511550,
  368280992774801601439300, 368291026422025263560500, 368300804501676858061100, 368641008189869584165000, 368700923460083545444700,
  368730823607200534332000, 368790808946853115144500, 368841026422025263560500, 368900774652378002461450, 368990804501676858061100,
  369131026422025263560500, 369140727853831493511550, 369201187365816506970600, 369380669750843249587650, 369390580292043706721600,
  369471118051098450976000, 369491026422025263560500, 369600992774801601439300, 369840823607200534332000, 369881187365816506970600,
  370021048736380394981500, 370380967643358773348600, 370660813598854678633800, 370700794183253234538000, 370960541845960172958400,
  371090967643358773348600, 371220660065860650595900, 371970840792226226998000, 372761187365816506970600, 372910755617005153339500,
  373190857782129906537700, 373250664791149135650450, 373260916560796396749600, 373270738502179533756600, 373290689692442264913100,
  373410783060689723515600, 375040603301650769630700, 375090923460083545444700, 375590938875151528170600, 375690800245715416181500,
  376280652180003159363950, 376361008189869584165000, 378060736279865855285550, 379410676771269116912500, 380240783060689723515600,
  380500652180003159363950, 380810676771269116912500, 381080923460083545444700, 381090800245715416181500, 381340603301650769630700,
  381440938875151528170600, 382150736279865855285550, 382630854145365489450200, 382710854145365489450200, 382720882913572734628400,
  382830892921918590326600, 382910804501676858061100, 383130992774801601439300, 383641048736380394981500, 383760882913572734628400,
  383880804501676858061100, 383970992774801601439300, 384310739632135059149900, 384500967643358773348600, 384511187365816506970600,
  384530882913572734628400, 384700938875151528170600, 384801187365816506970600, 384980509146610906291500, 384990882913572734628400,
  385050634026867634218600, 385060923460083545444700, 385170843967096058455900, 385200938875151528170600, 385251187365816506970600,
  385380739632135059149900, 385561118051098450976000, 385700634026867634218600, 385901187365816506970600, 385980811245804937614200,
  386170904044482101349000, 386201187365816506970600, 386271187365816506970600, 386510413169026524902100, 387380957107307207566000]

def emitE17_2 : List Nat := [
  387500992774801601439300, 387540957107307207566000, 387610656539046766850100, 389711048736380394981500, 390000979421662338987000,
  390571048736380394981500, 390801048736380394981500, 391181048736380394981500, 391310692489827469153800, 391340692489827469153800,
  391351187365816506970600, 391841008189869584165000, 392081118051098450976000, 393021118051098450976000, 393180967643358773348600,
  395241008189869584165000, 395911008189869584165000, 396360605061226958668700, 396400743100690857938950, 397911008189869584165000,
  400651008189869584165000, 406350861556162704822400, 406430727853831493511550, 406440727853831493511550, 406570992774801601439300,
  406600765415045989359900, 406701118051098450976000, 406800766896554567874000, 408450898328640717354000, 408570898328640717354000]

def emitE18_0 : List Nat := [
  351990040546510810816444, 373270109861228866810980]

def emitE20_0 : List Nat := [
  199680586180741324059350, 199691055085908320938700, 199751055085908320938700, 199761124400626376933200, 199770985771190264944200,
  199780375711272083911750, 199790487667707832947700, 199810475100913980695250, 199871032771553189517800, 199900670071148149932850,
  199940511604597207281300, 199960963456835133523300, 199970937220408686774100, 200041083854115566116900, 200050853595606266712200,
  200130596334383246001650, 200160999124329527396400, 200201193715344432927800, 200260674976763848852300, 200270850316623984413200,
  200300781001905928418600, 200370743734377399901300, 200400474949628021432300, 200410516178735339288700, 200430669540642926963500,
  200460754270428965683950, 200480864131657832494900, 200561014539397510122300, 200610768865820227991900, 200631193715344432927800,
  200650742629393781242800, 200700776276617443364100, 200800985771190264944200, 200810756770559186225600, 200980756770559186225600,
  201020465852450200859550, 201050617510206154910100, 201070599435406920257700, 201080910394010027306200, 201100633503462344957700,
  201110761966533079296800, 201130771764573915317100, 201160808700584261921800, 201290781001905928418600, 201320800532781160495200,
  201350497680571522797000, 201420864131657832494900, 201460841079291971311700, 201540555364680944527200, 201670875909961398133200,
  201700751831283653268000, 201820929809611471401900, 201830916456472208949600, 201851193715344432927800, 201901032771553189517800,
  201950714966170154723200, 201960847141754152955000, 202081055085908320938700, 202140624679399000521800, 202150847141754152955000,
  202190507544210384854700, 202371193715344432927800, 202390761966533079296800, 202401124400626376933200, 202410735218596565870600,
  202470804533314621865000, 202481083854115566116900, 202490973992886699305800, 202500516064645195709500, 202551055085908320938700,
  202560681318946492601900, 202600864131657832494900, 202620985771190264944200, 203010776276617443364100, 203020963456835133523300,
  203030768865820227991900, 203070591856022983304350, 203081083854115566116900, 203090525254171666135100, 203130853595606266712200,
  203160613503506895221500, 203200985771190264944200, 203290985771190264944200, 203320850316623984413200, 203580364786512132896060,
  203631032771553189517800, 203810847141754152955000, 203991193715344432927800, 204150847141754152955000, 204321193715344432927800,
  204391124400626376933200, 204451193715344432927800, 204490800532781160495200, 204620853595606266712200, 204930922910324322706700,
  204980910394010027306200, 205050505266679228649500, 205061055085908320938700, 205220945224679454127800, 205230985771190264944200,
  205380838180538283986500, 205400410831891674118800, 205510832623553168505400, 205531055085908320938700, 205581193715344432927800,
  205700985771190264944200, 205720884611099097096200, 205980985771190264944200, 206250945224679454127800, 206330749450218783896200,
  206581193715344432927800, 206590681318946492601900, 206610838180538283986500, 206630864131657832494900, 206671032771553189517800,
  207290847141754152955000, 207541193715344432927800, 207781083854115566116900, 207990591370585136824540, 208010945224679454127800,
  208080724580556210013400, 208090798590972574785100, 208121193715344432927800, 208130560743253880658200, 208171193715344432927800,
  208180591370585136824540, 208370674419659343906700, 208390867905690630779600, 208400784280888210717700, 208411083854115566116900,
  208440884611099097096200, 208450945224679454127800, 208461124400626376933200, 208490850316623984413200, 208510632402533794120700,
  208520609651178695588000, 208530899271446516283700, 208550594319201702270800, 208591055085908320938700, 208611124400626376933200,
  208690867905690630779600, 208740853595606266712200, 208760853595606266712200, 208821124400626376933200, 208910894142117077528700,
  208920894142117077528700, 208961124400626376933200, 209080864131657832494900, 209150743734377399901300, 209170638419385940766000,
  209231055085908320938700, 209280822358137762497000, 209370827359179819963200, 209411055085908320938700, 209431083854115566116900,
  209451193715344432927800, 209600764669400318088700, 209610770304693973201900, 209760999124329527396400, 209790894142117077528700,
  209860722762324301694400, 209870791180175359412900, 209910899271446516283700, 209920904678168643311400, 209980446124747496188100,
  209990838180538283986500, 210090585493453395283100, 210100781001905928418600, 210150817595332863571600, 210171055085908320938700,
  210210822358137762497000, 210280889263100660585500, 210290985771190264944200, 210330573057751760435100, 210350985771190264944200,
  210400400658759009531300, 210460706961899387369550, 210470860494893415407300, 210480751831283653268000, 210501124400626376933200,
  210510735218596565870600, 210631055085908320938700, 210690721865457303418400, 210730889263100660585500, 210760847141754152955000,
  210970748280614807577000, 211060726432460986737200, 211230781001905928418600, 211330889263100660585500, 211470498921637571430900,
  211490945224679454127800, 211501124400626376933200, 211510904678168643311400, 211520806595243342138700, 211530659961536462796000,
  211551193715344432927800, 211600434377925120798700, 211611055085908320938700, 211630963456835133523300, 211691124400626376933200,
  211700922910324322706700, 211710884611099097096200, 211830770304693973201900, 211850922910324322706700, 211870819948382604591000,
  211910810851204784018300, 212050434377925120798700, 212090659961536462796000, 212130800532781160495200, 212140884611099097096200,
  212180770304693973201900, 212201083854115566116900, 212371124400626376933200, 212400945224679454127800, 212530875909961398133200,
  212700611410754884625900, 212710696041970190870350, 212801124400626376933200, 212951032771553189517800, 213060737280525286144200,
  213070844064588286279800, 213120737280525286144200, 213130999124329527396400, 213151083854115566116900, 213190731218063104500700,
  213201124400626376933200, 213260884611099097096200, 213340815296381041101600, 213350850316623984413200, 213380827359179819963200,
  213401032771553189517800, 213441083854115566116900, 213510973992886699305800, 213550899271446516283700, 213590910394010027306200,
  213601124400626376933200, 213610985771190264944200, 213640945224679454127800, 213710945224679454127800, 213821124400626376933200,
  213871014539397510122300, 213880999124329527396400, 214020832623553168505400, 214071055085908320938700, 214210999124329527396400,
  214350606503565485386200, 214391055085908320938700, 214490945224679454127800, 214500824827399021534200, 214510732203292748801800,
  214530945224679454127800, 214570707734103996760600, 214620759334802247559450, 214630773246082493831200, 214640704680431610752400,
  214721083854115566116900, 214750651220342684787600, 214760999124329527396400, 214770937220408686774100, 214851083854115566116900,
  214870808700584261921800, 214880760642010404294700, 214900824827399021534200, 214910829956728460289200, 214940953925817153090700,
  214950922910324322706700, 214960642372469816429500, 214971193715344432927800, 215070853595606266712200, 215120817595332863571600,
  215131083854115566116900, 215160615950112110662100, 215170690020084191564900, 215180615640992853694900, 215210999124329527396400,
  215310777827036096960600, 215431124400626376933200, 215490654352589797691700, 215600787671043378285900, 215760916456472208949600,
  215780875909961398133200, 215920673314675725248300, 216190735218596565870600, 216280953925817153090700, 216290635742361834305600,
  216440999124329527396400, 216460929809611471401900, 216480922910324322706700, 216530904678168643311400, 216591124400626376933200,
  216930764669400318088700, 216970622012574292305600, 217050835363450587316900, 217090663883607778124100, 217290673314675725248300,
  217410880165922840012800, 218061083854115566116900, 218091032771553189517800, 218301032771553189517800, 218390576128617422351700,
  218800929809611471401900, 218920899271446516283700, 218971124400626376933200, 219160749450218783896200, 219170758044461763968600,
  220221193715344432927800, 220401032771553189517800, 220630929809611471401900, 220660945224679454127800, 220680827359179819963200,
  220991032771553189517800, 221081193715344432927800, 221161083854115566116900, 221200560743253880658200, 221391083854115566116900,
  221441124400626376933200, 221651193715344432927800, 221960853595606266712200, 222351193715344432927800, 222380819948382604591000,
  222420808700584261921800, 222600867905690630779600, 222690744851707459713800, 222700835363450587316900, 222780899271446516283700,
  222801124400626376933200, 222830744851707459713800, 222850867905690630779600, 222910899271446516283700, 222940835363450587316900,
  222960808700584261921800, 223030999124329527396400, 223120636499941215151300, 223200522541304927309800, 223300648183232897157700,
  223510910394010027306200, 223531032771553189517800, 223621124400626376933200, 224320922910324322706700, 224351055085908320938700,
  224780880165922840012800, 224950665394971559128900, 225210985771190264944200, 225300777827036096960600, 225331124400626376933200,
  225340725502221720505800, 225450999124329527396400, 225700727371435021721100, 225770894142117077528700, 225800648183232897157700,
  226151193715344432927800, 226450973992886699305800, 226490999124329527396400, 226590604827548599639700, 226810953925817153090700,
  226861032771553189517800, 227211032771553189517800, 227371193715344432927800, 227391014539397510122300, 227500910394010027306200,
  227630860494893415407300, 227660973992886699305800, 227670973992886699305800, 227680750633664548596400, 227880619095025378912500,
  227910749450218783896200, 227970782627958015596600, 228050985771190264944200, 228060556554159709742200, 228100439600098919296900,
  228120747124532567469400, 228180894142117077528700, 228210973992886699305800, 228230683728701650508000, 228250666415388576553100,
  228270929809611471401900, 228301193715344432927800, 228330787671043378285900, 228360618141123074236500, 228401124400626376933200,
  228420985771190264944200, 228550875909961398133200, 228561124400626376933200, 228590841079291971311700, 228710884611099097096200,
  228900985771190264944200, 228940841079291971311700, 228990691327292348300100, 229021055085908320938700, 229090507439553127787700,
  229140916456472208949600, 229370963456835133523300, 229710953925817153090700, 229871055085908320938700, 229950910394010027306200,
  230160999124329527396400, 230200910394010027306200, 230390922910324322706700, 230410880165922840012800, 230640832623553168505400]

def emitE20_1 : List Nat := [
  230940899271446516283700, 231000999124329527396400, 231101193715344432927800, 231300922910324322706700, 231860817595332863571600,
  232440985771190264944200, 232731193715344432927800, 233760471531761904082900, 233800945224679454127800, 233830644821571817259100,
  233840722762324301694400, 233850999124329527396400, 233891014539397510122300, 233950720976562561693800, 233961032771553189517800,
  233980431400037585237600, 234030999124329527396400, 234160431400037585237600, 234320871827761946107700, 234330681915963191252300,
  234390973992886699305800, 234450910394010027306200, 234480652550739247423800, 234500480865749864924100, 234520973992886699305800,
  234530904678168643311400, 234540723667307853686200, 234580910394010027306200, 234670916456472208949600, 234700916456472208949600,
  234750605104941287912200, 234780380151354097489200, 234810815296381041101600, 234851193715344432927800, 234861124400626376933200,
  234870753043419706502500, 235000734203359419468800, 235060916456472208949600, 235190894142117077528700, 235210973992886699305800,
  235260723667307853686200, 235281193715344432927800, 235321193715344432927800, 235361083854115566116900, 235420904678168643311400,
  235441014539397510122300, 235450771764573915317100, 235480985771190264944200, 235531083854115566116900, 235560696734014475327700,
  235580929809611471401900, 235590929809611471401900, 235601032771553189517800, 235621014539397510122300, 235650771764573915317100,
  235660985771190264944200, 235670680725472940620400, 235690589214813029326600, 235740774749870230285250, 235760973992886699305800,
  236010922910324322706700, 236100916456472208949600, 236121124400626376933200, 236130712496908895686100, 236140963456835133523300,
  236160838180538283986500, 236180678965896751582500, 236210884611099097096200, 236241193715344432927800, 236370767447356728796200,
  236460669012937216879160, 236511193715344432927800, 236520678965896751582500, 236530853595606266712200, 236600669012937216879160,
  236650732203292748801800, 236810922910324322706700, 237031193715344432927800, 237210985771190264944200, 237250824827399021534200,
  237361083854115566116900, 237550853595606266712200, 237891124400626376933200, 237921124400626376933200, 238311193715344432927800,
  239940824827399021534200, 240290850316623984413200, 240370719222131596602750, 240460822358137762497000, 240490824827399021534200,
  240500700989975917207350, 240520985771190264944200, 240550916456472208949600, 240650929809611471401900, 240660929809611471401900,
  240670999124329527396400, 240701124400626376933200, 240720844064588286279800, 240880847141754152955000, 241070844064588286279800,
  241090819948382604591000, 241200758044461763968600, 241630929809611471401900, 241780669540642926963500, 241790759334802247559450,
  241800656651541620161500, 241850669540642926963500, 241870945224679454127800, 241880856985761434280300, 241900764669400318088700,
  241961124400626376933200, 242070580158855324753900, 242110929809611471401900, 242120577173559009785800, 242130621684166772186600,
  242180999124329527396400, 242200529597127458868700, 242300520613534384719500, 242310904678168643311400, 242350929809611471401900,
  242370768865820227991900, 242470787671043378285900, 242650747124532567469400, 243141032771553189517800, 243200744851707459713800,
  243220768865820227991900, 243301055085908320938700, 243350518371552573149800, 243390999124329527396400, 243471014539397510122300,
  243510792982025909680700, 243520749450218783896200, 243670894142117077528700, 243690713313239959602100, 243730749450218783896200,
  243750864131657832494900, 243770718356325322291300, 243780864131657832494900, 243920718356325322291300, 243980894142117077528700,
  244020784280888210717700, 244030684955710909689400, 244180827359179819963200, 244250776276617443364100, 244321193715344432927800,
  244330904678168643311400, 244480792982025909680700, 244491193715344432927800, 244520835363450587316900, 244531055085908320938700,
  244590634616646381842100, 244600615640992853694900, 244650835363450587316900, 244661055085908320938700, 244710578868514841163150,
  244940791180175359412900, 245011193715344432927800, 245031083854115566116900, 245150551228442042389060, 245180999124329527396400,
  245240835363450587316900, 245250829956728460289200, 245350864131657832494900, 245360999124329527396400, 245370835363450587316900,
  245510771764573915317100, 245550744851707459713800, 245650889263100660585500, 245760889263100660585500, 245770606503565485386200,
  245970864131657832494900, 245980922910324322706700, 246050592588626992511600, 246130953925817153090700, 246150679548988782661800,
  246161193715344432927800, 246180822358137762497000, 246350945224679454127800, 246650937220408686774100, 246741193715344432927800,
  246770910394010027306200, 246801193715344432927800, 246810728319309417175500, 246870691987360751435300, 246941014539397510122300,
  247000937220408686774100, 247240894142117077528700, 247351014539397510122300, 247391193715344432927800, 247540875909961398133200,
  247561014539397510122300, 247730695354682262094100, 247780768865820227991900, 247850819948382604591000, 247960937220408686774100,
  248011014539397510122300, 248170937220408686774100, 248190824827399021534200, 248331083854115566116900, 248400904678168643311400,
  248470608208152212685100, 248581193715344432927800, 248590768865820227991900, 248630899271446516283700, 248680844064588286279800,
  248711083854115566116900, 248950899271446516283700, 249070606503565485386200, 249100776276617443364100, 249170884611099097096200,
  249300703931364437836700, 249350945224679454127800, 249421032771553189517800, 249511083854115566116900, 249620771764573915317100,
  249960844064588286279800, 249991055085908320938700, 250140999124329527396400, 250221124400626376933200, 250260774749870230285250,
  250320963456835133523300, 250330577173559009785800, 250421124400626376933200, 250781124400626376933200, 250790889263100660585500,
  250960884611099097096200, 251030782627958015596600, 251040693320713838381850, 251061032771553189517800, 251120635742361834305600,
  251141124400626376933200, 251360635742361834305600, 251380782627958015596600, 251420710087153737780000, 251430710087153737780000,
  251510945224679454127800, 251521083854115566116900, 251630717497950953152100, 251650819948382604591000, 251710773246082493831200,
  251870884611099097096200, 251990860494893415407300, 252000763308835112510800, 252150785961600042355900, 252160985771190264944200,
  252260922910324322706700, 252350875909961398133200, 252400819948382604591000, 252530894142117077528700, 252651055085908320938700,
  252851083854115566116900, 252891193715344432927800, 252930963456835133523300, 252961083854115566116900, 253020853595606266712200,
  253070945224679454127800, 253080847141754152955000, 253210701717251850115300, 253411014539397510122300, 253421055085908320938700,
  253511193715344432927800, 253761032771553189517800, 253810985771190264944200, 253871032771553189517800, 253910695354682262094100,
  254390910394010027306200, 254420999124329527396400, 254540749450218783896200, 254630791180175359412900, 254801083854115566116900,
  254841055085908320938700, 255040884611099097096200, 255051124400626376933200, 255091083854115566116900, 255120776276617443364100,
  255131055085908320938700, 255161055085908320938700, 255520755512680965539650, 255630999124329527396400, 255690737280525286144200,
  255820985771190264944200, 255880985771190264944200, 255970871827761946107700, 256130910394010027306200, 256151124400626376933200,
  256220871827761946107700, 256281193715344432927800, 256710871827761946107700, 256740929809611471401900, 256841014539397510122300,
  257200999124329527396400, 257351032771553189517800, 257471032771553189517800, 257580929809611471401900, 257730864131657832494900,
  257990701717251850115300, 258020791180175359412900, 258050806595243342138700, 258121083854115566116900, 258180749450218783896200,
  258300916456472208949600, 258540763308835112510800, 258920929809611471401900, 259000871827761946107700, 259031032771553189517800,
  259100755512680965539650, 259130973992886699305800, 259180592343828828647640, 259190937220408686774100, 259250904678168643311400,
  259280899271446516283700, 259321032771553189517800, 259350937220408686774100, 259430910394010027306200, 259450880165922840012800,
  259550794816939776500300, 259640899271446516283700, 259680541506064615912600, 259700929809611471401900, 259720999124329527396400,
  259731032771553189517800, 259760541506064615912600, 259871014539397510122300, 260010767447356728796200, 260030904678168643311400,
  260050904678168643311400, 260070850316623984413200, 260090494966319732828700, 260290658056716965726500, 260311083854115566116900,
  260320709296635787068650, 260390658056716965726500, 260410824827399021534200, 260440633503462344957700, 260450767447356728796200,
  260631083854115566116900, 260711124400626376933200, 260800810851204784018300, 260850648611499076357800, 260870884611099097096200,
  260890681318946492601900, 260971055085908320938700, 261020686197962909545100, 261060899271446516283700, 261260667965807230149600,
  261310504960087266466000, 261430841079291971311700, 261490800532781160495200, 261590473822220364110400, 261780686197962909545100,
  261950853595606266712200, 262020628817920616807150, 262230829956728460289200, 262280953925817153090700, 262340916456472208949600,
  262570985771190264944200, 262630827359179819963200, 263130853595606266712200, 263520973992886699305800, 263540894142117077528700,
  263600776276617443364100, 263670973992886699305800, 263710516064645195709500, 263760804533314621865000, 263770680725472940620400,
  263810774749870230285250, 263911055085908320938700, 263950784280888210717700, 263970708512318040966100, 264081193715344432927800,
  264111124400626376933200, 264120395064850577528270, 264150628817920616807150, 264210999124329527396400, 264260588271409805990800,
  264321193715344432927800, 264340999124329527396400, 264350710883970702697700, 264461055085908320938700, 264480929809611471401900,
  264490953925817153090700, 264650720095499593478200, 264690364786512132896060, 264800945224679454127800, 264810963456835133523300,
  264941055085908320938700, 264950963456835133523300, 265000704680431610752400, 265120666929528526594950, 265171083854115566116900,
  265190699551102171997400, 265241032771553189517800, 265251193715344432927800, 265300844064588286279800, 265380630236384116002850,
  265791014539397510122300, 265801193715344432927800, 265970685574907934481500, 266310794816939776500300, 266410945224679454127800]

def emitE20_2 : List Nat := [
  266570555027412496663300, 266660699551102171997400, 266790483712627770001800, 266840758044461763968600, 266911083854115566116900,
  266960929809611471401900, 267051014539397510122300, 267250937220408686774100, 267530910394010027306200, 267571083854115566116900,
  267810720095499593478200, 267860844064588286279800, 267900894142117077528700, 268000864131657832494900, 268270894142117077528700,
  268290945224679454127800, 268420973992886699305800, 268931124400626376933200, 269700630953233063864100, 269890511604597207281300,
  269990916456472208949600, 270540860494893415407300, 270830704680431610752400, 270850630236384116002850, 271380864131657832494900,
  271610794816939776500300, 271660844064588286279800, 271690657117742930742650, 271710483712627770001800, 271780815296381041101600,
  271930945224679454127800, 272110937220408686774100, 272310588271409805990800, 272430815296381041101600, 274020710883970702697700,
  274250781001905928418600, 274260860494893415407300, 274540768865820227991900, 274650808700584261921800, 274890860494893415407300,
  274900573867472783697000, 274911124400626376933200, 274920529206247482363400, 274930663384853627020200, 274981083854115566116900,
  275060922910324322706700, 275111124400626376933200, 275120784280888210717700, 275150695354682262094100, 275300827359179819963200,
  275420638419385940766000, 275721014539397510122300, 275731055085908320938700, 275781193715344432927800, 275901014539397510122300,
  275970782627958015596600, 276020661414346519086900, 276041083854115566116900, 276091014539397510122300, 276110875909961398133200,
  276650735218596565870600, 276670963456835133523300, 276680595573923307479700, 276830595573923307479700, 277000708512318040966100,
  277140646068989239776800, 277191032771553189517800, 277210904678168643311400, 277350725502221720505800, 277431193715344432927800,
  277440832623553168505400, 277481014539397510122300, 277600800532781160495200, 277700743734377399901300, 277840999124329527396400,
  277850999124329527396400, 278010856985761434280300, 278030904678168643311400, 278250922910324322706700, 278270889263100660585500,
  278330817595332863571600, 278350678965896751582500, 278410638419385940766000, 278491083854115566116900, 278610641569252646703200,
  278730963456835133523300, 278740894142117077528700, 278750922910324322706700, 278770953925817153090700, 278800779401871793774500,
  278820937220408686774100, 278871055085908320938700, 278910953925817153090700, 278991032771553189517800, 279000798590972574785100,
  279050899271446516283700, 279150889263100660585500, 279271014539397510122300, 279341014539397510122300, 279410798590972574785100,
  279630867905690630779600, 279640822358137762497000, 279660985771190264944200, 279690771764573915317100, 279730806595243342138700,
  279790777827036096960600, 279820727371435021721100, 279871193715344432927800, 280100749450218783896200, 280230929809611471401900,
  280341193715344432927800, 280400774749870230285250, 280411055085908320938700, 280440838180538283986500, 280700716646881986361350,
  280720999124329527396400, 280791014539397510122300, 280820841079291971311700, 280920827359179819963200, 281071032771553189517800,
  281220937220408686774100, 281290937220408686774100, 281321124400626376933200, 281360822358137762497000, 281391193715344432927800,
  281450850316623984413200, 281490922910324322706700, 281540806595243342138700, 281650603452011092791200, 281700922910324322706700,
  281761014539397510122300, 281871083854115566116900, 281890937220408686774100, 281931124400626376933200, 282011032771553189517800,
  282040777827036096960600, 282071193715344432927800, 282120904678168643311400, 282160864131657832494900, 282271193715344432927800,
  282341193715344432927800, 282460838180538283986500, 282630838180538283986500, 282711014539397510122300, 282870945224679454127800,
  282970929809611471401900, 283031014539397510122300, 283040565863202016343350, 283161193715344432927800, 283220832623553168505400,
  283311032771553189517800, 283570875909961398133200, 283691124400626376933200, 283780904678168643311400, 283830985771190264944200,
  283890827359179819963200, 284041083854115566116900, 284140904678168643311400, 284350806595243342138700, 284500904678168643311400,
  284590819948382604591000, 284660999124329527396400, 284721014539397510122300, 284970798590972574785100, 285000899271446516283700,
  285160716646881986361350, 285251193715344432927800, 285261193715344432927800, 286080953925817153090700, 286111193715344432927800,
  286290945224679454127800, 286390727371435021721100, 286510827359179819963200, 286811032771553189517800, 287770985771190264944200,
  287790747124532567469400, 287810875909961398133200, 287831014539397510122300, 287840889263100660585500, 287890963456835133523300,
  287900999124329527396400, 287970860494893415407300, 287980860494893415407300, 287990963456835133523300, 288090999124329527396400,
  288451124400626376933200, 288460669540642926963500, 288570754270428965683950, 288580674976763848852300, 288601083854115566116900,
  288660875909961398133200, 288720687455841130231100, 288951083854115566116900, 289020768865820227991900, 289030860494893415407300,
  289071055085908320938700, 289080835363450587316900, 289090755512680965539650, 289371055085908320938700, 289541124400626376933200,
  289610810851204784018300, 289760889263100660585500, 289820666929528526594950, 290011083854115566116900, 290171083854115566116900,
  290310884611099097096200, 290330768865820227991900, 290870838180538283986500, 291050755512680965539650, 291281014539397510122300,
  291340880165922840012800, 291380860494893415407300, 291451055085908320938700, 291510736244246582589500, 291570829956728460289200,
  291580963456835133523300, 291800835363450587316900, 291900937220408686774100, 292000999124329527396400, 292110875909961398133200,
  292290617510206154910100, 292330768865820227991900, 292540953925817153090700, 292550741536486728023700, 292561124400626376933200,
  292600853595606266712200, 292660822358137762497000, 292730813049095455895800, 292751032771553189517800, 292890396055803501270140,
  292980910394010027306200, 293220922910324322706700, 293460922910324322706700, 293561193715344432927800, 293590937220408686774100,
  293660937220408686774100, 293760937220408686774100, 293780973992886699305800, 293990999124329527396400, 294060894142117077528700,
  294541193715344432927800, 295520894142117077528700, 295571193715344432927800, 295601124400626376933200, 295750800532781160495200,
  295790953925817153090700, 296151014539397510122300, 296160999124329527396400, 296640999124329527396400, 296940999124329527396400,
  296990973992886699305800, 297020601557502468546300, 297480945224679454127800, 298270791180175359412900, 298641124400626376933200,
  298721014539397510122300, 299221193715344432927800, 299430899271446516283700, 299800889263100660585500, 299830662888574692807350,
  299860497680571522797000, 299920501845822530880600, 300000899271446516283700, 300010755512680965539650, 300020867905690630779600,
  300050666415388576553100, 300110973992886699305800, 300280847141754152955000, 300310889263100660585500, 300531055085908320938700,
  300580875909961398133200, 300590973992886699305800, 300640768865820227991900, 300700684955710909689400, 300861193715344432927800,
  300901083854115566116900, 300951014539397510122300, 300970681915963191252300, 301031124400626376933200, 301230937220408686774100,
  301270953925817153090700, 301401055085908320938700, 301490838180538283986500, 301510871827761946107700, 301621014539397510122300,
  301710822358137762497000, 302080787671043378285900, 302190953925817153090700, 302440670071148149932850, 302461193715344432927800,
  302490815296381041101600, 302701193715344432927800, 302741124400626376933200, 303061014539397510122300, 303181193715344432927800,
  303320707734103996760600, 303330615025606296257000, 303340904678168643311400, 303400449700676366658900, 303471193715344432927800,
  303820674976763848852300, 304060860494893415407300, 304080689372832741003100, 304100751831283653268000, 304220894142117077528700,
  304241083854115566116900, 304270880165922840012800, 304310710883970702697700, 304330712496908895686100, 304361083854115566116900,
  304420899271446516283700, 304460650343144077503900, 304560904678168643311400, 304620735218596565870600, 304651014539397510122300,
  304731055085908320938700, 304750704680431610752400, 304950867905690630779600, 304960899271446516283700, 305051124400626376933200,
  305180744851707459713800, 305240660927727553969650, 305260804533314621865000, 305280530779019089182900, 305610860494893415407300,
  305661014539397510122300, 305850763308835112510800, 306310791180175359412900, 306510999124329527396400, 306930627072675621684500,
  306970844064588286279800, 307010910394010027306200, 307071032771553189517800, 307191124400626376933200, 307210738327655272873700,
  307321032771553189517800, 307720841079291971311700, 307840661414346519086900, 308711083854115566116900, 308970808700584261921800,
  308990973992886699305800, 309000945224679454127800, 309080738327655272873700, 309520985771190264944200, 309900661414346519086900,
  310141124400626376933200, 310341124400626376933200, 310360910394010027306200, 310380638032538262974000, 310660894142117077528700,
  310700832623553168505400, 310800853595606266712200, 310850985771190264944200, 310960781001905928418600, 311030853595606266712200,
  311080853595606266712200, 311170781001905928418600, 311190796686153077715600, 311431083854115566116900, 311500910394010027306200,
  311630894142117077528700, 311690808700584261921800, 311791014539397510122300, 311810664384861960478550, 311850841079291971311700,
  311990688090763898097000, 312150743734377399901300, 312271193715344432927800, 312320937220408686774100, 312370824827399021534200,
  312430503441070717068500, 312460824827399021534200, 312780664384861960478550, 312830910394010027306200, 312930973992886699305800,
  312951124400626376933200, 313090743734377399901300, 313370910394010027306200, 313481014539397510122300, 313500721865457303418400,
  313510806595243342138700, 313540722762324301694400, 313590999124329527396400, 313730999124329527396400, 313891083854115566116900,
  314011083854115566116900, 314020822358137762497000, 314060806595243342138700, 314290999124329527396400, 314350945224679454127800,
  314490829956728460289200, 314561124400626376933200, 314610784280888210717700, 314710835363450587316900, 315050545710888240262500,
  315081193715344432927800, 315261083854115566116900, 315320963456835133523300, 315581193715344432927800, 315610768865820227991900]

def emitE20_3 : List Nat := [
  315690695354682262094100, 315720832623553168505400, 315740773246082493831200, 316090894142117077528700, 316140937220408686774100,
  316390672221768672029200, 316490800532781160495200, 316610672766729148785700, 316800764669400318088700, 316840963456835133523300,
  316871083854115566116900, 316890695354682262094100, 318050937220408686774100, 318060847141754152955000, 318200894142117077528700,
  318591014539397510122300, 318670777827036096960600, 318810889263100660585500, 318950880165922840012800, 319091083854115566116900,
  319320999124329527396400, 319340822358137762497000, 319460804533314621865000, 319950543586377378888800, 319980937220408686774100,
  320000985771190264944200, 320040884611099097096200, 320050598391011004149400, 320160646488277065780400, 320251083854115566116900,
  320260553027345825996350, 320320598911845514863200, 320340880165922840012800, 320390639981917731074100, 320470707734103996760600,
  320481193715344432927800, 320510910394010027306200, 320660841079291971311700, 320800894142117077528700, 320850700267951119858600,
  320940910394010027306200, 320970973992886699305800, 321130527019665190007100, 321140937220408686774100, 321290791180175359412900,
  321470584358367428414200, 321600985771190264944200, 321730569104667884771500, 321781124400626376933200, 321841083854115566116900,
  321910884611099097096200, 322020639981917731074100, 322101014539397510122300, 322180620381216743153300, 322270953925817153090700,
  322641032771553189517800, 322911055085908320938700, 322990875909961398133200, 323020725502221720505800, 323170945224679454127800,
  323180864131657832494900, 323210910394010027306200, 323400660443465106390900, 323501124400626376933200, 323610910394010027306200,
  323651032771553189517800, 323711124400626376933200, 323801124400626376933200, 323960875909961398133200, 324120999124329527396400,
  324160937220408686774100, 324180598391011004149400, 324220884611099097096200, 324230553027345825996350, 324260985771190264944200,
  324381083854115566116900, 324401083854115566116900, 324450646488277065780400, 324470620381216743153300, 324530910394010027306200,
  324541193715344432927800, 324550660443465106390900, 324560841079291971311700, 324630584358367428414200, 324650791180175359412900,
  324670894142117077528700, 324691124400626376933200, 324760973992886699305800, 324770700267951119858600, 324780910394010027306200,
  324790527019665190007100, 324871124400626376933200, 324890864131657832494900, 324901014539397510122300, 324930875909961398133200,
  324990910394010027306200, 325000569104667884771500, 325010884611099097096200, 325110985771190264944200, 325180999124329527396400,
  325360953925817153090700, 325410875909961398133200, 325530725502221720505800, 325641124400626376933200, 325700720095499593478200,
  325920929809611471401900, 325931124400626376933200, 325991193715344432927800, 326170916456472208949600, 326180810851204784018300,
  326260937220408686774100, 326290945224679454127800, 326411014539397510122300, 326451193715344432927800, 326481014539397510122300,
  326500724580556210013400, 326540973992886699305800, 326760824827399021534200, 326810516178735339288700, 327361124400626376933200,
  327450894142117077528700, 327690922910324322706700, 327710696734014475327700, 327731055085908320938700, 327841193715344432927800,
  327910922910324322706700, 328190751831283653268000, 328270910394010027306200, 328440844064588286279800, 328520999124329527396400,
  328620853595606266712200, 328790999124329527396400, 328820750633664548596400, 328870844064588286279800, 329050864131657832494900,
  329081055085908320938700, 329180884611099097096200, 329221193715344432927800, 329250973992886699305800, 329280815296381041101600,
  329290929809611471401900, 329331193715344432927800, 329370856985761434280300, 329451124400626376933200, 329460488184060098952600,
  329540779401871793774500, 329590808700584261921800, 329600477553144139009100, 329720829956728460289200, 329740813049095455895800,
  329880800532781160495200, 329900720095499593478200, 330140953925817153090700, 330160889263100660585500, 330210773246082493831200,
  330260815296381041101600, 330320729276254518790500, 330330729276254518790500, 330410684955710909689400, 330500722762324301694400,
  330670999124329527396400, 330730999124329527396400, 330800691327292348300100, 330810477553144139009100, 331040945224679454127800,
  331051193715344432927800, 331080985771190264944200, 331090985771190264944200, 331260684955710909689400, 331310808700584261921800,
  331360835363450587316900, 331390722762324301694400, 331440815296381041101600, 331460767447356728796200, 331500999124329527396400,
  331510904678168643311400, 331521193715344432927800, 331621193715344432927800, 331670985771190264944200, 331811193715344432927800,
  331840953925817153090700, 332180937220408686774100, 332250691327292348300100, 332511032771553189517800, 332530973992886699305800,
  332561193715344432927800, 332670822358137762497000, 332680871827761946107700, 332880609651178695588000, 332890781001905928418600,
  332900884611099097096200, 332920779401871793774500, 332930999124329527396400, 333070937220408686774100, 333100764669400318088700,
  333240693320713838381850, 333370758044461763968600, 333910999124329527396400, 333920808700584261921800, 333930808700584261921800,
  333940601289764691474550, 333950871827761946107700, 333990871827761946107700, 334020875909961398133200, 334100764669400318088700,
  334261124400626376933200, 334460899271446516283700, 334571083854115566116900, 334591124400626376933200, 334901124400626376933200,
  335091193715344432927800, 335100787671043378285900, 335380889263100660585500, 335390963456835133523300, 335751032771553189517800,
  335790922910324322706700, 335900999124329527396400, 336090796686153077715600, 336181083854115566116900, 336330899271446516283700,
  336350860494893415407300, 336430963456835133523300, 336470822358137762497000, 336551193715344432927800, 336741124400626376933200,
  337400735218596565870600, 337560999124329527396400, 337750884611099097096200, 338290736244246582589500, 338301032771553189517800,
  338361055085908320938700, 338530642372469816429500, 338650953925817153090700, 338790530779019089182900, 339050999124329527396400,
  339221032771553189517800, 339451032771553189517800, 339950894142117077528700, 340131193715344432927800, 340471014539397510122300,
  340850999124329527396400, 340930963456835133523300, 341091083854115566116900, 341800899271446516283700, 342181193715344432927800,
  342490910394010027306200, 342531193715344432927800, 342550850316623984413200, 342690875909961398133200, 342770822358137762497000,
  343100899271446516283700, 343261083854115566116900, 343271083854115566116900, 343820871827761946107700, 343851032771553189517800,
  343890619095025378912500, 343941032771553189517800, 343951032771553189517800, 343990922910324322706700, 344070761966533079296800,
  344111124400626376933200, 344330853595606266712200, 345031055085908320938700, 345620922910324322706700, 345931083854115566116900,
  346331032771553189517800, 347961032771553189517800, 348021124400626376933200, 348110853595606266712200, 348471083854115566116900,
  348800822358137762497000, 348920666929528526594950, 348990628817920616807150, 349070899271446516283700, 349130985771190264944200,
  349200727371435021721100, 349280794816939776500300, 349490973992886699305800, 349550973992886699305800, 350130750633664548596400,
  350180973992886699305800, 350370750633664548596400, 350410663384853627020200, 350650999124329527396400, 350990899271446516283700,
  351280899271446516283700, 351671124400626376933200, 351990945224679454127800, 352010581028426021509300, 352110626039964206099600,
  352150973992886699305800, 352190973992886699305800, 352220621356834237689700, 352420841079291971311700, 352580759334802247559450,
  352640614109569356390600, 352650626039964206099600, 352660614109569356390600, 352680973992886699305800, 352690973992886699305800,
  352700621356834237689700, 352730759334802247559450, 352820860494893415407300, 352990600490825688126700, 353020829956728460289200,
  353200829956728460289200, 353280628116163350942500, 353360631675257861212800, 353501193715344432927800, 353590782627958015596600,
  353730653899074281152500, 354130916456472208949600, 354220864131657832494900, 354330822358137762497000, 354410492774451162064100,
  354611193715344432927800, 354631124400626376933200, 354650856985761434280300, 354690916456472208949600, 354860706195612112812650,
  354881124400626376933200, 354920963456835133523300, 354961083854115566116900, 354980364060692402866300, 355190715802995121774900,
  355270871827761946107700, 355290945224679454127800, 355420683728701650508000, 355630867905690630779600, 355690894142117077528700,
  355820832623553168505400, 355840899271446516283700, 355860671679761925095300, 356110899271446516283700, 356131032771553189517800,
  356720716646881986361350, 356760777827036096960600, 356951014539397510122300, 356960656187503664511300, 357090856985761434280300,
  357120910394010027306200, 357220704680431610752400, 357310784280888210717700, 357450631675257861212800, 357480916456472208949600,
  357530784280888210717700, 357551193715344432927800, 357580656187503664511300, 357620899271446516283700, 357630894142117077528700,
  357700683728701650508000, 357720782627958015596600, 357740653899074281152500, 357800916456472208949600, 357820716646881986361350,
  357890864131657832494900, 357931014539397510122300, 357990822358137762497000, 358021124400626376933200, 358031193715344432927800,
  358050492774451162064100, 358210706195612112812650, 358230963456835133523300, 358261083854115566116900, 358280364060692402866300,
  358340832623553168505400, 358350910394010027306200, 358390945224679454127800, 358430715802995121774900, 358480871827761946107700,
  358510899271446516283700, 358550867905690630779600, 358590671679761925095300, 358741032771553189517800, 358890777827036096960600,
  359101193715344432927800, 359200999124329527396400, 359370661903345048506200, 359460889263100660585500, 359470675536989403719300,
  359611083854115566116900, 359800985771190264944200, 360000844064588286279800, 360010771764573915317100, 360070884611099097096200,
  360120770304693973201900, 360200817595332863571600, 360221083854115566116900, 360230985771190264944200, 360271055085908320938700,
  360390613201847541278950, 360400904678168643311400, 360490963456835133523300, 360511124400626376933200, 360620899271446516283700,
  360660916456472208949600, 360670815296381041101600, 360680945224679454127800, 360700894142117077528700, 360740609071466927155400]

def emitE20_4 : List Nat := [
  360760822358137762497000, 360770889263100660585500, 360840953925817153090700, 360901193715344432927800, 361060889263100660585500,
  361270844064588286279800, 361300771764573915317100, 361310770304693973201900, 361320916456472208949600, 361330910394010027306200,
  361340822358137762497000, 361360609071466927155400, 361390884611099097096200, 361401083854115566116900, 361450945224679454127800,
  361490817595332863571600, 361531055085908320938700, 361580904678168643311400, 361640613201847541278950, 361680963456835133523300,
  361710894142117077528700, 361720889263100660585500, 361750899271446516283700, 361820953925817153090700, 361861193715344432927800,
  361900889263100660585500, 361981193715344432927800, 362030894142117077528700, 362080766048732531322200, 362140945224679454127800,
  362150659481919236446700, 362450945224679454127800, 362590860494893415407300, 362750904678168643311400, 362910894142117077528700,
  363050973992886699305800, 363140899271446516283700, 363211124400626376933200, 363350588741998909732000, 363390766048732531322200,
  363410884611099097096200, 363680884611099097096200, 364200973992886699305800, 364810985771190264944200, 364930894142117077528700,
  365230827359179819963200, 365270822358137762497000, 365301055085908320938700, 365440822358137762497000, 365540659004591361180900,
  365570894142117077528700, 366291014539397510122300, 366371055085908320938700, 366391032771553189517800, 366490829956728460289200,
  366550739385866205927400, 366640973992886699305800, 366780864131657832494900, 366810806595243342138700, 366851083854115566116900,
  366860953925817153090700, 367100659004591361180900, 367160806595243342138700, 367311014539397510122300, 367350953925817153090700,
  367440829956728460289200, 367451055085908320938700, 367491032771553189517800, 367530739385866205927400, 367550973992886699305800,
  367600864131657832494900, 367611083854115566116900, 367640884611099097096200, 367660916456472208949600, 367710916456472208949600,
  367741124400626376933200, 367760884611099097096200, 367770880165922840012800, 367810916456472208949600, 367830880165922840012800,
  367850973992886699305800, 367860894142117077528700, 367930894142117077528700, 367980784280888210717700, 368070612901095434883400,
  368140856985761434280300, 368160929809611471401900, 368171124400626376933200, 368200787671043378285900, 368241124400626376933200,
  368270645235651083862300, 368280710883970702697700, 368300963456835133523300, 368310714136289873253600, 368341083854115566116900,
  368410910394010027306200, 368450999124329527396400, 368480804533314621865000, 368571124400626376933200, 368611124400626376933200,
  368640738327655272873700, 368661193715344432927800, 368671032771553189517800, 368790929809611471401900, 368820929809611471401900,
  368900656187503664511300, 368930899271446516283700, 368960770304693973201900, 368990963456835133523300, 369140645235651083862300,
  369300867905690630779600, 369350738327655272873700, 369380864131657832494900, 369390929809611471401900, 369411055085908320938700,
  369420612901095434883400, 369461193715344432927800, 369470548984758178806500, 369480784280888210717700, 369530922910324322706700,
  369580929809611471401900, 369600710883970702697700, 369650922910324322706700, 369691193715344432927800, 369740916456472208949600,
  369780714136289873253600, 369961124400626376933200, 369990910394010027306200, 370020894142117077528700, 370510963456835133523300,
  370700945224679454127800, 371290742629393781242800, 371680963456835133523300, 371930985771190264944200, 371970785961600042355900,
  372020929809611471401900, 372280819948382604591000, 372311083854115566116900, 372380827359179819963200, 372400904678168643311400,
  372570880165922840012800, 372660761966533079296800, 372910844064588286279800, 373191124400626376933200, 373240663384853627020200,
  373250643182190839691500, 373260899271446516283700, 373270565301928325847600, 373290602095138172184300, 373360945224679454127800,
  373411083854115566116900, 374281193715344432927800, 374761124400626376933200, 375041083854115566116900, 375590838180538283986500,
  375860973992886699305800, 376580963456835133523300, 376660929809611471401900, 376701083854115566116900, 376791083854115566116900,
  377070937220408686774100, 378570767447356728796200, 379120782627958015596600, 379410850316623984413200, 380131055085908320938700,
  380150899271446516283700, 380241083854115566116900, 380250945224679454127800, 380470782627958015596600, 380571124400626376933200,
  380650929809611471401900, 380751055085908320938700, 380810850316623984413200, 380831193715344432927800, 381260963456835133523300,
  381341083854115566116900, 381440838180538283986500, 381490937220408686774100, 381550973992886699305800, 381691083854115566116900,
  381821083854115566116900, 382360767447356728796200, 382630721865457303418400, 382710721865457303418400, 382720719222131596602750,
  382750796686153077715600, 382830744851707459713800, 382910634616646381842100, 383070832623553168505400, 383090680135500727901650,
  383640632402533794120700, 383760719222131596602750, 383780796686153077715600, 383820576128617422351700, 383880634616646381842100,
  383930808700584261921800, 383950853595606266712200, 384000680135500727901650, 384010832623553168505400, 384310860494893415407300,
  384501124400626376933200, 384510916456472208949600, 384520860494893415407300, 384530841079291971311700, 384590945224679454127800,
  384690556554159709742200, 384700871827761946107700, 384720867905690630779600, 384770953925817153090700, 384801193715344432927800,
  384980540919552670672750, 384990841079291971311700, 385050706195612112812650, 385061083854115566116900, 385120860494893415407300,
  385150867905690630779600, 385200871827761946107700, 385250916456472208949600, 385331032771553189517800, 385340963456835133523300,
  385380860494893415407300, 385431193715344432927800, 385480963456835133523300, 385531193715344432927800, 385550556554159709742200,
  385681193715344432927800, 385700706195612112812650, 385900696041970190870350, 385921124400626376933200, 385960904678168643311400,
  385971055085908320938700, 386200999124329527396400, 386260894142117077528700, 386270696041970190870350, 386320691327292348300100,
  386340728319309417175500, 386420771764573915317100, 386470937220408686774100, 386510666415388576553100, 386540973992886699305800,
  386560899271446516283700, 386630904678168643311400, 386650953925817153090700, 386861083854115566116900, 386950973992886699305800,
  387061032771553189517800, 387121055085908320938700, 387280963456835133523300, 387380910394010027306200, 387450776276617443364100,
  387480776276617443364100, 387500802513043890113100, 387540589689873305186400, 387610661903345048506200, 387950985771190264944200,
  388081083854115566116900, 388291124400626376933200, 388990999124329527396400, 389110663883607778124100, 389141032771553189517800,
  389150953925817153090700, 389241083854115566116900, 389310798590972574785100, 389351124400626376933200, 389360910394010027306200,
  389480929809611471401900, 389570618141123074236500, 389880732203292748801800, 389911193715344432927800, 390000899271446516283700,
  390031055085908320938700, 390060777827036096960600, 390150829956728460289200, 390191193715344432927800, 390301032771553189517800,
  390310953925817153090700, 390380829956728460289200, 390390798590972574785100, 390421083854115566116900, 390460910394010027306200,
  390471124400626376933200, 390560929809611471401900, 390640732203292748801800, 390681193715344432927800, 390721055085908320938700,
  390761193715344432927800, 390800624005995782387300, 391180624005995782387300, 391310860494893415407300, 391340860494893415407300,
  391350860494893415407300, 391381124400626376933200, 391510751831283653268000, 391650973992886699305800, 391781055085908320938700,
  391840835363450587316900, 391920853595606266712200, 392691124400626376933200, 392770751831283653268000, 392810973992886699305800,
  393180922910324322706700, 393211032771553189517800, 393361193715344432927800, 393400688090763898097000, 393610880165922840012800,
  394461014539397510122300, 394491014539397510122300, 394720999124329527396400, 394791124400626376933200, 395110973992886699305800,
  395140768865820227991900, 395190770304693973201900, 395221083854115566116900, 395320688090763898097000, 395390880165922840012800,
  395401083854115566116900, 395540945224679454127800, 395640973992886699305800, 395751014539397510122300, 395781124400626376933200,
  395791014539397510122300, 395880770304693973201900, 395920832623553168505400, 396360591856022983304350, 396400751831283653268000,
  397170850316623984413200, 397190808700584261921800, 397400871827761946107700, 397461032771553189517800, 397480945224679454127800,
  397491083854115566116900, 397591124400626376933200, 397640953925817153090700, 397700798590972574785100, 398540963456835133523300,
  400600798590972574785100, 400920963456835133523300, 401650945224679454127800, 401800832623553168505400, 404790945224679454127800,
  404830832623553168505400, 405720808700584261921800, 405751014539397510122300, 406350817595332863571600, 406360474949628021432300,
  406570817595332863571600, 406700754270428965683950, 406920953925817153090700, 407180806595243342138700, 407230792982025909680700,
  407361014539397510122300, 407630945224679454127800, 407781124400626376933200, 407841124400626376933200, 407860835363450587316900,
  408310835363450587316900, 408451032771553189517800, 408571032771553189517800]

def emitE21_0 : List Nat := [
  264350000000000000000000, 274020000000000000000000]

def emitE22_0 : List Nat := [
  199680448158020861834700, 199710683532200130545850, 199750475368774343461200, 199760691658496538422400, 199770484791552068630000,
  199790451619161288554000, 199850947731045172957600, 199901067672743951965200, 199951082333091371152600, 199970684315749682940750,
  200040585205669349585100, 200100186401253157753130, 200180764967269483661900, 200370552081186030979000, 200431120282053541643000,
  200610692615441640037500, 200650868017355764558300, 201080492863814033185800, 201160606566555282691800, 201230376262868661533960,
  201331030203399007824100, 201370670215652928025000, 201590620405022446360100, 201950588356995920192800, 202001376776989287796700,
  202140516311542569173550, 202190763654340339482650, 202210550676010685414000, 202341238147553175807800, 202371197601042364991200,
  202390934892928508137000, 202490780934519984818550, 202500718021987805317100, 203010424283778314314650, 203130615050207924962100,
  203361307462271231802100, 203630802476670506848500, 204571215833198044386700, 204861215833198044386700, 204910186401253157753130,
  204930596148060361093450, 207400620405022446360100, 207990561125966679800100, 208030292378691977086700, 208061168832835119813200,
  208110633587797607016700, 208180561125966679800100, 208281128286324308996700, 208410585205669349585100, 208430640069283299695500,
  208450631885379033376600, 208550734777496473082500, 208740822259244839840500, 208760822259244839840500, 209600827470844953742000,
  209860668103195836739000, 209920738764735597820200, 209980431880639873918900, 210150547898408245103850, 210170725009861996569250,
  210510612957164859218800, 210630725009861996569250, 211030634003105234507400, 212420951927465082860800, 212530777380846557139800,
  213050664813425486033100, 213130561874602482619700, 213150592942657732085100, 213171067672743951965200, 213190814014877918733000,
  213200921389300127742700, 213220555764548771370050, 213591024140936826180600, 213670573768579861040400, 214411376776989287796700,
  214520613294921513242500, 214570766969561071172700, 214720790130183594467000, 214741082333091371152600, 214750551741094140067300,
  214770472124340613999900, 214820441940822300441000, 214880648569623478450300, 214910441272329990252600, 214940797780972198071400,
  214950692189001761391800, 214960974241820214281900, 215170482910701921184950, 215440501566269454860400, 215920680268954727656100,
  216080563125164076267600, 216190857481304198775600, 216970657258257269925800, 217090814014877918733000, 217290680268954727656100,
  221360501566269454860400, 222350543449953962265800, 222380566397317989617500, 222420699240380194157600, 222800660614788993877950,
  222960699240380194157600, 223300557381686931422500, 223590528062362281402600, 224391307462271231802100, 225300884051620772076200,
  225340730474043595729800, 225800557381686931422500, 225810874388937203169000, 226020528062362281402600, 227210921389300127742700,
  227630834723489360568200, 227680473202103163382850, 227771266915760420985700, 227880572442772243635900, 228100352264489497984000,
  228120626337833371672800, 228210780934519984818550, 228250391842178644248750, 228360597500817206144100, 228710581621056172271500,
  230021215833198044386700, 233760543859445080056500, 233950627724049081725500, 234331093455654882175100, 234470599123486469272700,
  234780439846188980613900, 234931050967335485648500, 235440718990853515692050, 235450576373838502526900, 235530671073291118007550,
  235620787336705861311600, 235650576373838502526900, 235690498713609338298400, 236100677383691765477800, 236140878416327116963000,
  236160864380591347470800, 236180559560544076606400, 236220534885127073007000, 236260534885127073007000, 236520559560544076606400,
  236810527241339607090400, 237920836960719136021500, 240511072324745515454400, 240801087739813498180300, 240860993912849638887200,
  241031063227567694881700, 241090820708826186244000, 241100830393808785235700, 241151087739813498180300, 241281063227567694881700,
  241330691552732382608950, 241490757745448702482000, 241620837869816306146700, 241710830393808785235700, 241780643083297917035000,
  241800286567456597847060, 241850643083297917035000, 241900827470844953742000, 242020894748832727293000, 242300641340756245649100,
  242310535527077257639600, 243191307462271231802100, 243200760867450438603400, 243520542302713846042100, 243730542302713846042100,
  244941093455654882175100, 250961307462271231802100, 251001021242183138855400, 251040598496263003827300, 251300803442861598022200,
  251420623193943007960000, 251430623193943007960000, 251520667852673785045300, 251590777880847598810400, 251630628227828484721200,
  251710814375238669062900, 252090500841514431175800, 252260544488987110806300, 252400799944889708419550, 252730868017355764558300,
  252850834723489360568200, 252891099518117063818700, 253070827883216672128200, 253310812941522354422100, 254140892358280641937500,
  254201376776989287796700, 254900717609616086930900, 256740879103615045739200, 256940941106106618837600, 257350942396447102428400,
  257741005419782617366000, 258120834723489360568200, 258920879103615045739200, 259030551506321631032200, 259680441332917692802800,
  259720989656888197007600, 259760441332917692802800, 259910739786891004974000, 260070820708826186244000, 260200602103698512434500,
  260410590990233354616500, 260850499888456674310400, 260920942396447102428400, 261020818804006689174500, 261431157054531554174800,
  261780818804006689174500, 261880722963006911029700, 263540800886811900068600, 263710718021987805317100, 263760548680549232459500,
  263810909494105841606200, 263911043556538270276400, 263990658998747668277000, 264101087739813498180300, 264120675565459857158800,
  264210741688417616322800, 264261168832835119813200, 264380864977608046121200, 264630821094183117843000, 264650440978567898922250,
  264790636776037571527450, 265220698444469227400700, 265250753728844529948550, 265380728619276360153640, 265500663847234394859400,
  265781376776989287796700, 266090900559595808021000, 266350851027452085018500, 266660751010230499532800, 266790641725372104396900,
  266810583289832693279000, 266941182185974382265500, 266960816196782658197000, 267000819942538911687000, 267230861447829838018800,
  267290810828767711834600, 267420727856496155265000, 267510864977608046121200, 267810440978567898922250, 268470851027452085018500,
  268690703080293487611200, 270850728619276360153640, 271370810828767711834600, 271710641725372104396900, 272311168832835119813200,
  272840861447829838018800, 274250329962215394744300, 274540655032646118143450, 274680884051620772076200, 274930510284658943739400,
  275060527241339607090400, 275730532594700848650700, 276270703436800104060800, 277541018425095442185800, 277950926796022254770200,
  279660764747247392701700, 283160862610633637530800, 284040792712823550456900, 288570429168635596875800, 292550524479345670600200,
  293051215833198044386700, 295901376776989287796700, 296770757132576508344700, 299220937332073820552800, 299260654374508459213600,
  299420761716712443168700, 299830797780972198071400, 300030989656888197007600, 300450670215652928025000, 300580613925226630291100,
  300900790130183594467000, 303320766969561071172700, 303340595701177634861100, 304060825031699641326000, 304150740819602420559000,
  304180852602287781832400, 304240758982577882736700, 304300740819602420559000, 304360758982577882736700, 304460798702637708563800,
  304621215833198044386700, 305240550057770694582300, 305280790413871727987000, 308710669874646629970800, 309170941106106618837600,
  310800868017355764558300, 311810330901886714528050, 311860812232299523472900, 312430871152408752965900, 312780330901886714528050,
  314490770398468419035900, 314560575873920780823700, 314710788723690647726700, 315080665707376989914000, 315321040047406289149400,
  315580665707376989914000, 315610694014065837511500, 315680976043670764549600, 316650872434477595872200, 316800714237752487001100,
  316870637389160277021100, 316991067672743951965200, 317511082333091371152600, 317571067672743951965200, 318590405169684420180300,
  318670573119648317065400, 318900775161273317961400, 320250830393808785235700, 320260690187881799452900, 320341105971969177575800,
  320680692295441366970450, 321140684315749682940750, 321730691870361024451000, 322180698218224787003800, 323110816934793387959200,
  324230690187881799452900, 324400830393808785235700, 324470698218224787003800, 324520692295441366970450, 325000691870361024451000,
  325330816934793387959200, 325920983594426015364200, 326760649190529233143500, 327011093455654882175100, 328820473202103163382850,
  329290449389150009779700, 329740901417970177160300, 330800730786543850043300, 331080887742076465621300, 332250730786543850043300,
  333680678397992761983300, 334100714237752487001100, 334551120282053541643000, 335800919305891437458400, 338360475368774343461200,
  338650797780972198071400, 338790790413871727987000, 343890572442772243635900, 343990692189001761391800, 348920645588372880080300,
  349550843505109961259900, 350410465515260943040000, 352820712528309151071150, 353520848965523364745000, 353770797171214211259600,
  357600848965523364745000, 357680797171214211259600, 360110933695309403465300, 361430933695309403465300, 362150647067888771755000,
  362550692295441366970450, 363350554494776206430700, 365230721955079011559500, 365540795962740289752400, 366170765630255337528900,
  366350563008170790036300, 366490869259607764414000, 366500600050589612066000, 366551005419782617366000, 367100795962740289752400,
  367180600050589612066000, 367330765630255337528900, 367420563008170790036300, 367440869259607764414000, 367531005419782617366000,
  367841040047406289149400, 368900776635501491681700, 369130563125164076267600, 369410608482672299967600, 369470567859421404040600,
  369730770631297394995050, 370700926796022254770200, 370960419056665057556300, 371290868017355764558300, 371931010420824674832100,
  372760947731045172957600, 373240465515260943040000, 373250711619801928824000, 373270457742816740847400, 373290974241820214281900,
  375261015685198023374300, 376560964063550783287600, 376640888496797029159600, 377700711232954251032000, 379120593337758996753100,
  380470593337758996753100, 381141015685198023374300, 381800964063550783287600, 381890888496797029159600, 382250711232954251032000,
  382720645721973434354450, 382830760867450438603400, 382910632879830048210600, 383471105971969177575800, 383760645721973434354450,
  383880632879830048210600, 384211105971969177575800, 384310691236109426803900, 384530527671535907142400, 384990527671535907142400]

def emitE22_1 : List Nat := [
  385380691236109426803900, 385980867401969207120500, 386170613294921513242500, 386460989656888197007600, 387540609315239551360400,
  389110814014877918733000, 389130699126290050578450, 389140769703216487547800, 389150616437055313729800, 389170548528688914740500,
  389310658162558835564200, 389570597500817206144100, 389820607520024481006100, 390060573119648317065400, 390290699126290050578450,
  390300769703216487547800, 390310616437055313729800, 390330548528688914740500, 390390658162558835564200, 390630607520024481006100,
  391840875049005606304300, 391920615050207924962100, 393180681122444972639850, 393810858038408703721200, 395500858038408703721200,
  397170820708826186244000, 406700429168635596875800, 407781376776989287796700, 407841376776989287796700]

def emitE24_0 : List Nat := [
  199680469322904910701850, 199770902833876399314800, 199790902833876399314800, 199970651603314001703400, 200560723657929476509300,
  201590792972647532503850, 201840718251207349481700, 201950619512541993693200, 202140225716715013111200, 202210334816615497608100,
  202390818104090360594500, 202490490659522758293300, 202500436175994987641300, 203010539956323394891800, 203630735436233042147700,
  207400792972647532503850, 207990646338940653161100, 208180646338940653161100, 209980357873194989888500, 210210735436233042147700,
  213151012695105266125900, 213191012695105266125900, 213451012695105266125900, 214570902833876399314800, 214750699145683673210800,
  214880792972647532503850, 222380357873194989888500, 223300282041965372175300, 225800282041965372175300, 228210490659522758293300,
  234331012695105266125900, 234600804750951098142200, 241100518530863005195400, 241710518530863005195400, 241800723657929476509300,
  242300068359600957560230, 253460729373770860504140, 254990729373770860504140, 257050782436595966721300, 260200851751314022715700,
  260410748789372304599900, 261020522167627422282900, 261430699145683673210800, 261780522167627422282900, 263710436175994987641300,
  263760764204440287325800, 263970517819116228308900, 263990943380387210131300, 264121012695105266125900, 264650348576888292066660,
  266791012695105266125900, 266810469760542370681700, 267810348576888292066660, 271711012695105266125900, 274250418677979994082600,
  277440818104090360594500, 288570365306035630898300, 293050772905577986288700, 303320902833876399314800, 303341012695105266125900,
  315610528276396620266600, 320000578314563080757400, 320260833519158343320200, 321140651603314001703400, 324230833519158343320200,
  324260578314563080757400, 330500385975050411989560, 331390385975050411989560, 333370851751314022715700, 333940520697012683313250,
  348920729373770860504140, 349550675965522267478400, 363350833519158343320200, 366000874065669154136800, 366350500895724024450300,
  367240874065669154136800, 367420500895724024450300, 369470535626642819559300, 379120569613425381794400, 380470569613425381794400,
  384700943380387210131300, 385200943380387210131300, 387540319450316108874900, 406700365306035630898300]

def emitE25_0 : List Nat := [
  199680884642617299333300, 199690907688237115382900, 199711244647441340065300, 199761030249435058324500, 199770993146973245537300,
  199780661400559778312900, 199790658644821277205600, 199841062731596998448300, 199851098785939070113600, 199871132588321801376800,
  199900781823895448156600, 199920883016565212155200, 199940415109232806484700, 199950886295547494454400, 199960673252161009037500,
  199970833015094445977800, 199981094983199511189700, 200041007935079926903700, 200051002462589957978900, 200061241368459057766100,
  200101133681228854595900, 200111218411014893316100, 200130802442610437728600, 200180971427375206615900, 200240935998777657819800,
  200250965940767198021900, 200260688182630031187100, 200270667513713782252400, 200291218411014893316100, 200300959000420718017000,
  200371584767179506280900, 200401584767179506280900, 200410551487240794423600, 200431087785849548680900, 200441185868774849853400,
  200480743228986979325600, 200541114719142927039300, 200561114719142927039300, 200571232131127044664600, 200611151693845477647700,
  200621474905950639470000, 200641010787888288357400, 200650780948261508960600, 200700626714812912310100, 200810896934532677148300,
  200830976317238198763700, 200980896934532677148300, 201021208647167936924700, 201050674113759181221450, 201070562725895160525800,
  201080983885860962021400, 201091515452461450286300, 201100934938964558637400, 201111071187335801254600, 201130811311295070805200,
  201160797636059173940200, 201170842112272266550300, 201221125255194492821800, 201261125255194492821800, 201291045860006524630700,
  201301238193589226308200, 201320828811229905510800, 201350564470947800594800, 201361229232373357339500, 201371118423270095074000,
  201401064917476379698300, 201411014722822167212300, 201420892798794521539700, 201460648736089651033100, 201540413460941342862400,
  201601195585149695218200, 201610964919307857050000, 201641241368459057766100, 201660957290977382087000, 201671112028397635046800,
  201700985871037817294600, 201710866077077465117600, 201740935998777657819800, 201770950379136093647700, 201791001578931777929000,
  201801085045952129869400, 201811081071919264917900, 201821159917655301345000, 201830938464233814213800, 201841010787888288357400,
  201850886852651999399900, 201950588097472912879600, 201960663823182832979000, 201971515452461450286300, 202001515452461450286300,
  202020840987667339087600, 202040648169613155517700, 202080901571822949695300, 202101070017731824935600, 202140559910628443361100,
  202150564637858690404800, 202190645334458697361000, 202210571537676158803200, 202231120328089592143600, 202251088482716480290200,
  202341155721235391441800, 202370826289871745060900, 202381232131127044664600, 202391336276514527480900, 202400878633742815237000,
  202411238193589226308200, 202470671453649399559700, 202481262879597019460800, 202490850295274091313600, 202500474800674279194600,
  202541032621087720056300, 202560900179191979875900, 202600873942765533126800, 202621121294280683317300, 202661083039195824788300,
  202710916056318719629400, 202721474905950639470000, 202760850037209431964400, 202781229232373357339500, 202801376823025338297200,
  202851081071919264917900, 202911584767179506280900, 203010547737320418010900, 203020882302276460917200, 203041290323281589636800,
  203070479800475943409600, 203090894091701641425600, 203130926842058305270700, 203141280314935733938600, 203150939404679617011600,
  203160683249508789387900, 203181235116423359632900, 203231295730003716664300, 203291159917655301345000, 203321211000217677944000,
  203510795671507892389000, 203561062731596998448300, 203580995326896079795800, 203630656445277767405300, 203651020222489741957000,
  203791182232010432765900, 203811474905950639470000, 203841089184473746154900, 203870981698653480154500, 203910959000420718017000,
  203921000412737803144800, 203931307508307282302700, 203941376823025338297200, 203981221008563533642300, 203990903642741646151600,
  204060981698653480154500, 204150956727595610261400, 204191285193952150881800, 204261295730003716664300, 204301376823025338297200,
  204331086406517335447200, 204390823237345523699400, 204401063818564222138700, 204451054935442851477100, 204481089184473746154900,
  204490774720690403344600, 204571032621087720056300, 204581271217757913365900, 204621446137743394291800, 204721271217757913365900,
  204861032621087720056300, 204891001578931777929000, 204911133681228854595900, 204921167328452516717000, 204931474905950639470000,
  204970648169613155517700, 204981290323281589636800, 205050572256184758440960, 205221112028397635046800, 205231121294280683317300,
  205380762297223309557400, 205400544848240890653650, 205510849394946466317800, 205591328272243760127200, 205721446137743394291800,
  205810972517898554842300, 205960959000420718017000, 205980948809792639043000, 205991094239701662437800, 206031241368459057766100,
  206051083039195824788300, 206130864948821796086500, 206251029859571016759000, 206321032621087720056300, 206330650964206194573600,
  206481159917655301345000, 206531295730003716664300, 206590900179191979875900, 206610762297223309557400, 206630873942765533126800,
  206741241368459057766100, 206870754243496557021700, 206891000412737803144800, 206930957290977382087000, 206980850037209431964400,
  207110945575468167020700, 207181223675388241858500, 207251474905950639470000, 207290564637858690404800, 207360840987667339087600,
  207441307508307282302700, 207541182232010432765900, 207571376823025338297200, 207691087785849548680900, 207781262879597019460800,
  207861159917655301345000, 207911271217757913365900, 207990597665578267364300, 208030702963354466850900, 208040791638703353691750,
  208060967388569116087100, 208071032621087720056300, 208080911784772457333200, 208090634982436594913100, 208110756140234227974300,
  208180597665578267364300, 208201044950909354505500, 208260660622042806157300, 208281098785939070113600, 208370640091632957917600,
  208390849908426413521500, 208401132588321801376800, 208411007935079926903700, 208431031824270755138400, 208440768801105799943200,
  208451423823388262870700, 208480950203543423421200, 208491584767179506280900, 208510714184368479602400, 208521021646001324144300,
  208530622621564346964700, 208541320861446544755000, 208550696514128662918600, 208560778083648064547200, 208571584767179506280900,
  208590790886954690832800, 208610874270634679296600, 208641446137743394291800, 208690849908426413521500, 208721189642807648138100,
  208740943257483589121300, 208760943257483589121300, 208811111147334666831200, 208821221008563533642300, 208851172053741001771600,
  208891000994134789686800, 208910534735524964033300, 208920864277928485813600, 208960888732406596150000, 208981258957525704132700,
  209001313962159396059800, 209061584767179506280900, 209081051979562627322700, 209121068288582113929400, 209140908494228813092900,
  209170557524481576796600, 209181423823388262870700, 209191114719142927039300, 209231079142598971450000, 209281515452461450286300,
  209340675870840925322550, 209351365044721772658900, 209371390176164600749500, 209401161356529046555000, 209411079142598971450000,
  209571474905950639470000, 209601037961165392767700, 209641067152206248897900, 209731117484296060090200, 209760951439216692311800,
  209790995879383672992800, 209821032621087720056300, 209841164297917567184200, 209851168878871170313600, 209860810483583963206000,
  209871114719142927039300, 209891052955180121859200, 209911344977652226443800, 209920813299432126188100, 209951045404424871044700,
  209980560660547547898700, 209991151693845477647700, 210020825480150721799000, 210090882569537199064800, 210100622867142408194200,
  210150822061437804387500, 210170668117882286690200, 210180985121970644378700, 210190771056840542350750, 210281023819999987784800,
  210290720296528334761100, 210321376823025338297200, 210330637812598862739400, 210350720296528334761100, 210381474905950639470000,
  210460617077121561865000, 210471173679793088949600, 210480559733743690692800, 210491085045952129869400, 210501007935079926903700,
  210510781466229646614100, 210580728780232936613450, 210630668117882286690200, 210661423823388262870700, 210691275662934170449200,
  210701085045952129869400, 210730892798794521539700, 210830985121970644378700, 210950705012330658125100, 210981280314935733938600,
  211031116554056793858900, 211061142883118726621000, 211090771056840542350750, 211230622867142408194200, 211270705012330658125100,
  211281229232373357339500, 211330892798794521539700, 211370728780232936613450, 211470465398787145212600, 211500939090213949064500,
  211510866531968317754700, 211521106018005228076200, 211530546621244363176800, 211551062731596998448300, 211600632033329630079200,
  211611085045952129869400, 211631159917655301345000, 211701057467223649906200, 211710970563438947545300, 211830533645879402073000,
  211851057467223649906200, 211871199752419335275000, 211911189642807648138100, 211951036287486157215400, 212021001286105800020300,
  212050632033329630079200, 212090546621244363176800, 212130963908176896618000, 212140970563438947545300, 212180533645879402073000,
  212200927819037464851200, 212351036287486157215400, 212421099564153114319000, 212461474905950639470000, 212530799678913025295700,
  212700636516916229288100, 212711033021889859810100, 212730946585577765671000, 212771515452461450286300, 212800865925905856585500,
  212831046317673227372000, 212900952870368131637400, 212950786491409305169500, 213050948636931748981400, 213060507115598071214000,
  213070844888551964286100, 213101229232373357339500, 213120507115598071214000, 213131229232373357339500, 213151141685499621949500,
  213191390176164600749500, 213201258957525704132700, 213210994503846166144200, 213221199752419335275000, 213260917311040324838300,
  213271164297917567184200, 213290907116480269062500, 213300971427375206615900, 213321164297917567184200, 213330766791130136290800,
  213341295730003716664300, 213350915310973654171400, 213400957102830572116400, 213450847492542865848000, 213461112028397635046800,
  213481258957525704132700, 213501031824270755138400, 213511244647441340065300, 213550858925964446750200, 213591344977652226443800,
  213600922095404581378400, 213611061656317820822000, 213651030249435058324500, 213670900712526577412100, 213751023090069739623700,
  213780680918793003281700, 213801376823025338297200, 213810776557851688442650, 213820768658228221701100, 213870741494776027302100,
  213881320861446544755000, 213971107698717059714400, 214001336276514527480900, 214021076626743007834500, 214070649037801013046240]

def emitE25_1 : List Nat := [
  214100939404679617011600, 214130912624609427216500, 214140937997306895845500, 214161208647167936924700, 214171248037596507633400,
  214211320861446544755000, 214220980741708378539400, 214351336276514527480900, 214390846554742932529600, 214420944244333703196800,
  214430944244333703196800, 214490997274106421077800, 214501151693845477647700, 214510682269761006680600, 214570771203189170842200,
  214600883645780771244200, 214640839584955853487900, 214651275662934170449200, 214711295730003716664300, 214721344977652226443800,
  214740886295547494454400, 214750573469346766625800, 214760936609466578637800, 214770913836745480451000, 214820895909933549744500,
  214850996993601328316900, 214870978388658637520000, 214880663323980518337200, 214900588681196266881000, 214911126270431639223600,
  214940733931755231377550, 214950655253082139416100, 214960445560408786604000, 215011275662934170449200, 215071108549786026505200,
  215120832365037985668400, 215131213409972835850000, 215141173679793088949600, 215160763727553995803400, 215170696375432385483700,
  215180746790327955824300, 215190856697459967806700, 215201191584616233848200, 215210648049862905983700, 215251376823025338297200,
  215310927120222601458400, 215341474905950639470000, 215351376823025338297200, 215361208647167936924700, 215421515452461450286300,
  215430992609337541899400, 215441405591232583475400, 215451285193952150881800, 215471238193589226308200, 215481061656317820822000,
  215581086406517335447200, 215601218411014893316100, 215631020222489741957000, 215641474905950639470000, 215681344977652226443800,
  215701376823025338297200, 215741423823388262870700, 215761218411014893316100, 215780619046848628253250, 215841086406517335447200,
  215871280314935733938600, 215920528441288979045500, 216021128332360359497200, 216041164297917567184200, 216080921567001766717900,
  216190759652965597205700, 216281023090069739623700, 216290694236313387352000, 216440827208714350501700, 216471206348216114454700,
  216501151693845477647700, 216570986625758380832700, 216741215879234094887300, 216761446137743394291800, 216791262879597019460800,
  216831251546728488760400, 216931248037596507633400, 216970483002674252310800, 217001584767179506280900, 217041275662934170449200,
  217081584767179506280900, 217090843914122816818200, 217131275662934170449200, 217221208647167936924700, 217290528441288979045500,
  217330702431830994901700, 217361035873406890612200, 217371474905950639470000, 217461262879597019460800, 217670876093386055223200,
  217771138176367640822500, 218091029084373336327100, 218300630207421002195700, 218331193564878963466200, 218390797293266989099800,
  218541275662934170449200, 218570937532550056190800, 218601474905950639470000, 218621515452461450286300, 218781069438020056503000,
  218801030640824990438300, 218841218411014893316100, 218881223675388241858500, 218911134786212473254400, 218921177013435115709000,
  218951405591232583475400, 218970978854859948101100, 219121048169578004095600, 219160909774060127424000, 219171307508307282302700,
  219340766791130136290800, 219371474905950639470000, 219431446137743394291800, 219451405591232583475400, 219471048637962935338300,
  219711423823388262870700, 219811301445845100659100, 219871193564878963466200, 219891266961796471486300, 219941158499191802149200,
  220401313962159396059800, 220430942767686691566600, 220631030640824990438300, 220641275662934170449200, 220651024186972876681200,
  220680981219036253805200, 220701211000217677944000, 220991313962159396059800, 221081155721235391441800, 221161255183492905848000,
  221200568193536933189100, 221221376823025338297200, 221321446137743394291800, 221361405591232583475400, 221391474905950639470000,
  221581328272243760127200, 221591105188124946606700, 221651155721235391441800, 221791354508670206876400, 221840986625758380832700,
  221961002462589957978900, 222101354508670206876400, 222161280314935733938600, 222180864352250302686900, 222251024186972876681200,
  222341159917655301345000, 222351020931712572906300, 222381328272243760127200, 222400640677541205696200, 222411336276514527480900,
  222420602257830995469200, 222441515452461450286300, 222501072370781565955000, 222530702844993748786900, 222571072370781565955000,
  222600683249508789387900, 222661474905950639470000, 222690514272091848327600, 222700735928968550069000, 222711262879597019460800,
  222751118423270095074000, 222761307508307282302700, 222780924102160886459200, 222800827826000261209700, 222830514272091848327600,
  222850683249508789387900, 222900702844993748786900, 222910924102160886459200, 222940735928968550069000, 222960602257830995469200,
  223030672082173358565100, 223071140502053857249200, 223120863464013522794000, 223171405591232583475400, 223200500195289665217100,
  223291446137743394291800, 223300442983753387390400, 223340928664112916623600, 223360750602317616150200, 223381238193589226308200,
  223460881504753403480200, 223501101935805776050800, 223511066588824477072400, 223521165801705303638300, 223530948292103821089700,
  223590642149450028818900, 223621137033498058460200, 223630761363758737076700, 223650933890265809112700, 223661094983199511189700,
  223671049108552039079500, 223681208647167936924700, 223690828343331989231800, 223721092769086923468300, 223781076626743007834500,
  223831062731596998448300, 223871170453706867127500, 224021180462052722825700, 224031295730003716664300, 224041336276514527480900,
  224110605355277958204600, 224180917311040324838300, 224271119371144490528500, 224341099564153114319000, 224351090602937245350500,
  224381117484296060090200, 224411068861649584828000, 224430987132088576487400, 224561328272243760127200, 224661211000217677944000,
  224671017779087208228900, 224780686247697707150800, 224891423823388262870700, 224901211000217677944000, 224950603099563951364400,
  224961072967798264605400, 225191290323281589636800, 225220826595215493750000, 225300737568519648465100, 225331137033498058460200,
  225340892897657604233800, 225351376823025338297200, 225381068861649584828000, 225451201903039857371300, 225571211000217677944000,
  225581313962159396059800, 225610938620361870909100, 225640922893281154558800, 225751584767179506280900, 225761189642807648138100,
  225770615416480731461000, 225800442983753387390400, 226020642149450028818900, 226031229232373357339500, 226051515452461450286300,
  226090928805655756956700, 226120821043740627333600, 226151048169578004095600, 226160937378109871053400, 226181258957525704132700,
  226220916306006739488000, 226261094983199511189700, 226281423823388262870700, 226450896626049142027300, 226491201903039857371300,
  226541074172632116222700, 226561241368459057766100, 226590628463438051711700, 226610940354053836236800, 226660987132088576487400,
  226750811355049173450400, 226810817911068704691100, 226841208647167936924700, 226870981698653480154500, 226960913958771120973900,
  226971099564153114319000, 227071049108552039079500, 227181117484296060090200, 227210794555424878636100, 227270761363758737076700,
  227371101935805776050800, 227390741494776027302100, 227411077249797982898200, 227440917311040324838300, 227451446137743394291800,
  227501066588824477072400, 227511336276514527480900, 227560778650043537188800, 227610933890265809112700, 227630563471621675304200,
  227661446137743394291800, 227671446137743394291800, 227680660428356904042500, 227710814060913969233500, 227740923563076022971600,
  227780923563076022971600, 227810915558805255618000, 227880719280579852149900, 227910650964206194573600, 227971135903542533066900,
  227990787935229505009200, 228051117484296060090200, 228060892700029081412400, 228101059017642303502700, 228120829753645257437900,
  228180969281370104639000, 228210850295274091313600, 228230918198807728040000, 228250747227260926445800, 228260759861952089151700,
  228270682861300125209200, 228300679761755301996800, 228330761736099592778800, 228360560172993422792000, 228391084372548911734800,
  228411105188124946606700, 228461105188124946606700, 228491235116423359632900, 228550934488174914718400, 228561139332449880930100,
  228571290323281589636800, 228591275662934170449200, 228630845934393548570200, 228651170453706867127500, 228700849715562322881000,
  228710862729795833886000, 228851365044721772658900, 228871365044721772658900, 228891235116423359632900, 228941275662934170449200,
  228990662332990345081200, 229000827826000261209700, 229020791818527174851900, 229040982422420210177600, 229090885741529456892700,
  229131328272243760127200, 229141290323281589636800, 229150903422719555191200, 229161235116423359632900, 229181071777308013973400,
  229190741930981735318700, 229200748246496064445200, 229311132588321801376800, 229341229232373357339500, 229371125255194492821800,
  229411071777308013973400, 229421320861446544755000, 229481474905950639470000, 229491515452461450286300, 229541275662934170449200,
  229581157100567604675200, 229690794518435789995350, 229710850295274091313600, 229740998688557159694300, 229820965530930558793600,
  229871180462052722825700, 229920748877118264116400, 229930829806262990827600, 229950722359924201947500, 229960695629778557817300,
  230041070017731824935600, 230131091319786193211700, 230140982422420210177600, 230161049108552039079500, 230201208647167936924700,
  230350857388547721791400, 230391031824270755138400, 230410869149515758219200, 230430880713540484685400, 230441290323281589636800,
  230471336276514527480900, 230521238193589226308200, 230640692128711379759300, 230671262879597019460800, 230711320861446544755000,
  230771038383999003719900, 230891262879597019460800, 230901141685499621949500, 230941244647441340065300, 231001336276514527480900,
  231051290323281589636800, 231100777146726782378200, 231301032221885593102500, 231380905532736759200000, 231420741930981735318700,
  231561067718780002465600, 231571584767179506280900, 231581023454368867473900, 231670959192175330944000, 231860957102830572116400,
  232071141685499621949500, 232190983395663902000700, 232241584767179506280900, 232290748246496064445200, 232331096486987247643800,
  232340949853280368301000, 232441266961796471486300, 232501423823388262870700, 232521087093805264223400, 232551275662934170449200,
  233071584767179506280900, 233081336276514527480900, 233291423823388262870700, 233321103548743969039000, 233381087093805264223400,
  233441067718780002465600, 233511103548743969039000, 233521023454368867473900, 233601244647441340065300, 233760395024612446078560,
  233791390176164600749500, 233800803894248831841000, 233811177013435115709000, 233830662332990345081200, 233840793818230238904800]

def emitE25_2 : List Nat := [
  233850882302276460917200, 233891155721235391441800, 233941133681228854595900, 233950853378496342934600, 233961344977652226443800,
  233980482139980188758500, 234010818379453635933800, 234030882302276460917200, 234160482139980188758500, 234181235116423359632900,
  234211087093805264223400, 234251135903542533066900, 234271474905950639470000, 234281320861446544755000, 234290816565028423593400,
  234310930375994949801600, 234320911189178082048200, 234330778115030459281400, 234470865548973634956400, 234480660225389647393000,
  234490888448180919257000, 234500631184791340809400, 234520894292102510097000, 234530813746660063027600, 234540693681620765755800,
  234561271217757913365900, 234570996993601328316900, 234580747921065744697100, 234600670454017278007500, 234611344977652226443800,
  234621065471494417259800, 234661129379490346226700, 234670746675662193919900, 234700746675662193919900, 234750829438518946238900,
  234760903422719555191200, 234771025668481455195100, 234780463464944284131600, 234810660932722667702900, 234851094983199511189700,
  234860953412374878571400, 234871016409202772412700, 234940789259752180011200, 234950951261754356475000, 235000779952269339760650,
  235060946585577765671000, 235071014056153031393300, 235171117484296060090200, 235190882302276460917200, 235211091319786193211700,
  235221117484296060090200, 235260693681620765755800, 235271135903542533066900, 235280859490937700962100, 235290996993601328316900,
  235311000994134789686800, 235321094983199511189700, 235361328272243760127200, 235411271217757913365900, 235420813746660063027600,
  235440890551508936334000, 235451113814159375047400, 235460910243544557844700, 235480655861266837523500, 235510915558805255618000,
  235531023819999987784800, 235560999546931528833400, 235580717501450102249900, 235590717501450102249900, 235601132588321801376800,
  235610864799344937163600, 235621076007545983042500, 235651113814159375047400, 235660655861266837523500, 235670745944898494353100,
  235691095732266684105500, 235720919351927487959000, 235740913714868561038000, 235760896626049142027300, 235780790070043736921800,
  235881197647078415491800, 235911584767179506280900, 236010826137548791008800, 236080851268991619099500, 236091157100567604675200,
  236100984131863546107500, 236120972737437611185700, 236131241368459057766100, 236140914940374094739500, 236150991013558998038100,
  236160621043103425839600, 236171158499191802149200, 236180661195611675539750, 236210857527340249276200, 236221446137743394291800,
  236241175332723284070700, 236251057981363599948000, 236261446137743394291800, 236270771967673929086300, 236290851268991619099500,
  236301185868774849853400, 236310987386218319354600, 236321238193589226308200, 236330973842421229844200, 236370998688557159694300,
  236441057981363599948000, 236460667888285024486100, 236481285193952150881800, 236511474905950639470000, 236520661195611675539750,
  236531147822394259578600, 236600667888285024486100, 236631153018368152649800, 236650679106552302866800, 236790875012294444801600,
  236810885925861306321700, 237001213409972835850000, 237031066028598922205400, 237061515452461450286300, 237070737422152659449000,
  237131189642807648138100, 237210729956150101184950, 237250890841784902130100, 237311033021889859810100, 237360742919457658572800,
  237451290323281589636800, 237770852384122886049200, 237821040525408454101500, 237920747805096811370700, 237980737422152659449000,
  238050852384122886049200, 238300932705066750411200, 238311066028598922205400, 238330950379136093647700, 238491094983199511189700,
  238691301445845100659100, 238831328272243760127200, 238881515452461450286300, 239151584767179506280900, 239381280314935733938600,
  239940890841784902130100, 239960875012294444801600, 240051144095254779855600, 240181040525408454101500, 240201144095254779855600,
  240290798787261450069900, 240300821964066813247400, 240340948636931748981400, 240370630243185102573400, 240390916181084799444900,
  240431223675388241858500, 240460740908900422848200, 240491061122983223285800, 240501446137743394291800, 240520798133287201626500,
  240551006384661273307100, 240620895198909731494100, 240650577044104150759700, 240660536015462650227400, 240670778052275515270250,
  240690815921643851286400, 240701119371144490528500, 240720614636162803198500, 240800975636191298511000, 240811515452461450286300,
  240841365044721772658900, 240851022727092934565900, 240860962907167537108000, 240880957857551135654700, 240891313962159396059800,
  240901071777308013973400, 240911101935805776050800, 240920974959751289656800, 240930683663638492099300, 241010815921643851286400,
  241020625179695046734000, 241031238193589226308200, 241070614636162803198500, 241090683407650054630440, 241101072370781565955000,
  241150975636191298511000, 241180625179695046734000, 241191515452461450286300, 241201029859571016759000, 241250897347329960951400,
  241281238193589226308200, 241301584767179506280900, 241321313962159396059800, 241330625650059593682250, 241481055436697033831600,
  241490824576983518764300, 241551320861446544755000, 241590974959751289656800, 241611208647167936924700, 241621244647441340065300,
  241630577044104150759700, 241711072370781565955000, 241780820370984606028000, 241790619952820706651700, 241800663723142808629250,
  241821241368459057766100, 241840893194834643149500, 241850820370984606028000, 241861584767179506280900, 241871024924983606443400,
  241881034641358451808200, 241901037961165392767700, 241911405591232583475400, 241960859278698498547100, 241980922493547111296800,
  241991295730003716664300, 242020804709914039215800, 242070716107343878584300, 242081101138988811133000, 242091290323281589636800,
  242110784130422741256200, 242120744566501345568800, 242130775054986414409700, 242150745649544423005750, 242170848502652464498500,
  242200564782740488506450, 242221056446806632482000, 242231229232373357339500, 242300463808364215493450, 242310842112272266550300,
  242350784130422741256200, 242370713261183551715400, 242451208647167936924700, 242461290323281589636800, 242470986878603016168700,
  242481082379127421653200, 242571107698717059714400, 242580939404679617011600, 242640937997306895845500, 242651173679793088949600,
  242660873942765533126800, 242750959962892055437900, 242821208647167936924700, 242831344977652226443800, 242850980741708378539400,
  242870848502652464498500, 242880680918793003281700, 242891290323281589636800, 242901229232373357339500, 242911405591232583475400,
  242971235116423359632900, 242981235116423359632900, 243001101138988811133000, 243070776557851688442650, 243101061656317820822000,
  243110728168843947713900, 243140948982952855471000, 243201008248069227796300, 243211336276514527480900, 243220806070479244793800,
  243241226415285660669800, 243301059539836701617900, 243350541588222445945360, 243391100348470860421700, 243410995602758323703800,
  243510679714812454051000, 243520745332443364541700, 243571185868774849853400, 243580958237058232510000, 243591019869755690160300,
  243611223675388241858500, 243671061656317820822000, 243691021646001324144300, 243730745332443364541700, 243750901895972342112500,
  243770668253801592470500, 243780901895972342112500, 243920668253801592470500, 243961185868774849853400, 243981061656317820822000,
  244021083703650096655300, 244030903203180498847800, 244050776991423132588800, 244180639650513692010800, 244211423823388262870700,
  244221423823388262870700, 244250806195089852818500, 244330709224941491432050, 244410762163336557732400, 244490724338389679563700,
  244520725629920547231900, 244531099564153114319000, 244590630286118913608550, 244600746790327955824300, 244650725629920547231900,
  244660791315833118054500, 244710901033898037721700, 244731007935079926903700, 244780935998777657819800, 245010724338389679563700,
  245030791530964072305700, 245091012408669311042800, 245150552550680294638100, 245180914325744009870000, 245240961522377851228600,
  245350671745746756591100, 245371145322264039037000, 245441262879597019460800, 245451201903039857371300, 245511052466181592440000,
  245551180462052722825700, 245611184033860983033800, 245650684165322016024700, 245761007935079926903700, 245770611224792757393500,
  245941149096296837321600, 246050728627034898225000, 246131191584616233848200, 246150469682154355998600, 246161037540112139133400,
  246180969069280947725400, 246350995602758323703800, 246511221008563533642300, 246561124250160907471700, 246651376823025338297200,
  246771096486987247643800, 246801003354126323774200, 246811027172269191649300, 246870589149692024767400, 246940961719034748432700,
  247351040959248613961400, 247361474905950639470000, 247390902112657150621500, 247541172053741001771600, 247581197647078415491800,
  247601390176164600749500, 247730544997592458412800, 247851354508670206876400, 248001177013435115709000, 248010961719034748432700,
  248091159917655301345000, 248150794963210429819000, 248190661890228761825800, 248331301445845100659100, 248381354508670206876400,
  248470678201043445607000, 248581295730003716664300, 248590962708162496306800, 248630724246772632385750, 248681060064772290232100,
  248751313962159396059800, 248950863096230835335000, 249070611224792757393500, 249081515452461450286300, 249101251546728488760400,
  249131191584616233848200, 249171280314935733938600, 249301094983199511189700, 249310794963210429819000, 249350925462726092037000,
  249361474905950639470000, 249420933741345453965900, 249500922493547111296800, 249621052466181592440000, 249741218411014893316100,
  249771117484296060090200, 249961060064772290232100, 250101129379490346226700, 250140914325744009870000, 250221158499191802149200,
  250330744566501345568800, 250411584767179506280900, 250421275662934170449200, 250591584767179506280900, 250741159917655301345000,
  250781275662934170449200, 250791007935079926903700, 250861191584616233848200, 250881221008563533642300, 250961146564516038892700,
  251011390176164600749500, 251021285193952150881800, 251030809490698621148000, 251040862802975493207400, 251051052955180121859200,
  251060830333968700912100, 251120739256679595999260, 251140875592967996765600, 251191078507676203584300, 251301405591232583475400,
  251360739256679595999260, 251380809490698621148000, 251391213409972835850000, 251401079781578781327000, 251420630422197717060100,
  251430630422197717060100, 251510644020335897569750, 251520650507584396615500, 251590902656432280634400, 251611204100930529248900,
  251630664224346744764650, 251650742522894019238100, 251661121294280683317300, 251691054935442851477100, 251701474905950639470000]

def emitE25_3 : List Nat := [
  251710990750054234237600, 251760863022836336627600, 251870960156502958124500, 251911290323281589636800, 251961313962159396059800,
  252031423823388262870700, 252091251546728488760400, 252151031824270755138400, 252160726863120032049100, 252201232131127044664600,
  252260953775351683629100, 252391111147334666831200, 252400909891224757112800, 252420895401544046017300, 252520983395663902000700,
  252530615416480731461000, 252591320861446544755000, 252651027551776288504500, 252691262879597019460800, 252761313962159396059800,
  252850861421637644137000, 252861376823025338297200, 252890953593698590989400, 252921446137743394291800, 252931089184473746154900,
  252961307508307282302700, 253000738198244651368600, 253071074780536723861000, 253081014722822167212300, 253211515452461450286300,
  253291290323281589636800, 253310919739274647538700, 253321515452461450286300, 253401584767179506280900, 253431248037596507633400,
  253451124250160907471700, 253461054436688700373300, 253510694385658333988700, 253531044050002360269000, 253611446137743394291800,
  253711515452461450286300, 253761223675388241858500, 253771083039195824788300, 253811065471494417259800, 253910973842421229844200,
  254241336276514527480900, 254291184033860983033800, 254381390176164600749500, 254391111147334666831200, 254540606810482444615800,
  254631066588824477072400, 254671336276514527480900, 254800728359501774772100, 254840898073851060092600, 254900983395663902000700,
  254991054436688700373300, 255051020576472412469500, 255061045860006524630700, 255091045860006524630700, 255111066588824477072400,
  255140911784772457333200, 255511049581366158674300, 255520826391549435569700, 255541301445845100659100, 255621313962159396059800,
  255821065471494417259800, 255881075392159425604500, 256131111147334666831200, 256151100348470860421700, 256701101935805776050800,
  256741098785939070113600, 256841320861446544755000, 256881154360670185864000, 257361390176164600749500, 257441390176164600749500,
  257451390176164600749500, 257461266961796471486300, 257471223675388241858500, 257581295730003716664300, 257710895401544046017300,
  257731251546728488760400, 257781054935442851477100, 257991515452461450286300, 258021114719142927039300, 258031083039195824788300,
  258050981219036253805200, 258060981458557326400600, 258120861421637644137000, 258161295730003716664300, 258180606810482444615800,
  258301390176164600749500, 258501101935805776050800, 258911515452461450286300, 258921098785939070113600, 259030782707264516583750,
  259100842709288965200700, 259181584767179506280900, 259190627567888793511500, 259250784130422741256200, 259280799601061717354300,
  259320934788475440695300, 259351328272243760127200, 259371307508307282302700, 259430968857640657087600, 259441275662934170449200,
  259450707832008726383700, 259551054935442851477100, 259581158499191802149200, 259680538262748235433200, 259721405591232583475400,
  259730934788475440695300, 259760538262748235433200, 259910667732043130298900, 259951155721235391441800, 260010923967116976672100,
  260070913958771120973900, 260090571908260950630900, 260111320861446544755000, 260121133681228854595900, 260201266961796471486300,
  260231153018368152649800, 260291006692827927048000, 260310863022836336627600, 260321066028598922205400, 260391006692827927048000,
  260410547349334950080800, 260440934938964558637400, 260450673351198156059500, 260491199752419335275000, 260530995879383672992800,
  260590893692100710087300, 260601515452461450286300, 260630602311923061482300, 260661474905950639470000, 260710797712395055509700,
  260850680303187886434400, 260861043602574320776800, 260871040959248613961400, 260880846182071693760000, 260891313962159396059800,
  260951241368459057766100, 260971046777444152234800, 261020711021920751222400, 261061474905950639470000, 261141235116423359632900,
  261260705938333479918900, 261271584767179506280900, 261310623667787197568300, 261321328272243760127200, 261430653721463175185300,
  261490949853280368301000, 261511199752419335275000, 261590555827579196773400, 261721081071919264917900, 261741446137743394291800,
  261780711021920751222400, 261851028315138774011600, 261871028315138774011600, 261951405591232583475400, 261971068288582113929400,
  261981185868774849853400, 262021046777444152234800, 262051081071919264917900, 262221072370781565955000, 262230665906591523263200,
  262281474905950639470000, 262300836049810084907000, 262311215879234094887300, 262340937842147826703600, 262471077876759284257700,
  262481068288582113929400, 262491185868774849853400, 262571081723387367037300, 262621107698717059714400, 262630952510655513552400,
  262861238193589226308200, 262920896831599060236900, 263131405591232583475400, 263421218411014893316100, 263540751825501112349000,
  263600626714812912310100, 263611189642807648138100, 263641175332723284070700, 263671158499191802149200, 263710474800674279194600,
  263760774690355199107700, 263791158499191802149200, 263810741625438066797500, 263911140502053857249200, 263950829964282512779400,
  263970770793951534513800, 263990587218921535553200, 264080729723726986676900, 264110911070483706095200, 264120538679951298073500,
  264131128332360359497200, 264150551695764263700300, 264171515452461450286300, 264201161356529046555000, 264210830017011224784000,
  264260513998775819144100, 264291173679793088949600, 264321147822394259578600, 264341376823025338297200, 264350591108801503749100,
  264380814421274719563500, 264401128332360359497200, 264410926981043734176200, 264460938152707082519000, 264471049108552039079500,
  264480641059433626228600, 264490717467215250837100, 264540949156413436691800, 264621139332449880930100, 264630926150014020813300,
  264641062731596998448300, 264650793561490688380300, 264690995326896079795800, 264720990225118645623300, 264790889877457274949500,
  264801029859571016759000, 264810673252161009037500, 264851365044721772658900, 264871140502053857249200, 264921390176164600749500,
  264940815145915571640000, 264950579378344185915500, 264970802522706557349000, 265000543637315792156100, 265071446137743394291800,
  265121161356529046555000, 265171184033860983033800, 265190662807440182394900, 265240594338456235611600, 265250858925964446750200,
  265300963506569931128900, 265310971862158500226200, 265380768259253625774100, 265391365044721772658900, 265411390176164600749500,
  265500775390403713172800, 265511515452461450286300, 265640979558262613839200, 265751000703013768941000, 265761354508670206876400,
  265771251546728488760400, 265791114719142927039300, 265861199752419335275000, 265880916056318719629400, 265971313962159396059800,
  266011140502053857249200, 266041226415285660669800, 266071251546728488760400, 266090831826533722579600, 266110997837488192903300,
  266120958809033099788600, 266131067718780002465600, 266231115632391283366500, 266291067718780002465600, 266310635886670018445400,
  266321034234025913044500, 266361376823025338297200, 266381125255194492821800, 266390948464369152234400, 266410739491046380596000,
  266431027932729130171200, 266471060064772290232100, 266570691466720348426200, 266661009509915623717500, 266751376823025338297200,
  266790797636059173940200, 266800869540293903026800, 266810844644053064979300, 266840543715581900907450, 266851223675388241858500,
  266901140502053857249200, 266910877017374149357700, 266931336276514527480900, 266941027172269191649300, 266960642788119890441840,
  266971584767179506280900, 267000889589963066389600, 267040966972768101220800, 267051002758886471044700, 267071168878871170313600,
  267081206348216114454700, 267091124250160907471700, 267201170453706867127500, 267231068288582113929400, 267250811881597121026600,
  267261111147334666831200, 267281026042313666255800, 267291074172632116222700, 267420978621487613479000, 267510814421274719563500,
  267530852384122886049200, 267570964919307857050000, 267671215879234094887300, 267711197647078415491800, 267751130437701279280400,
  267810793561490688380300, 267831390176164600749500, 267861014056153031393300, 267900969281370104639000, 267921070017731824935600,
  267971218411014893316100, 267990880102451721405300, 268000705588177074344500, 268031255183492905848000, 268161365044721772658900,
  268181154360670185864000, 268250926150014020813300, 268270984625691710165900, 268290966972768101220800, 268340903973685136288200,
  268371185868774849853400, 268390971862158500226200, 268401087785849548680900, 268420928947399225054000, 268481089184473746154900,
  268511376823025338297200, 268551034234025913044500, 268641515452461450286300, 268651307508307282302700, 268741112917292376771300,
  268810990225118645623300, 268850871917584938277200, 268941024186972876681200, 268951170453706867127500, 268980884369765834012800,
  269161251546728488760400, 269281390176164600749500, 269321307508307282302700, 269371584767179506280900, 269431251546728488760400,
  269461108549786026505200, 269540990225118645623300, 269631365044721772658900, 269641405591232583475400, 269701057981363599948000,
  269731301445845100659100, 269741226415285660669800, 269791244647441340065300, 269821390176164600749500, 269871229232373357339500,
  269890415109232806484700, 269970802522706557349000, 269991204100930529248900, 270001211000217677944000, 270040753578223683245000,
  270101061122983223285800, 270121076007545983042500, 270141290323281589636800, 270151446137743394291800, 270161115632391283366500,
  270171255183492905848000, 270281098785939070113600, 270360998120373812951200, 270471262879597019460800, 270511515452461450286300,
  270531178722878451638900, 270541103548743969039000, 270601055436697033831600, 270671121294280683317300, 270830543637315792156100,
  270841112917292376771300, 270850768259253625774100, 270861320861446544755000, 270881120328089592143600, 270911062731596998448300,
  270990904638876059118900, 271031189642807648138100, 271041266961796471486300, 271120990225118645623300, 271231026042313666255800,
  271331002758886471044700, 271351365044721772658900, 271371074172632116222700, 271380743228986979325600, 271550753578223683245000,
  271610635886670018445400, 271660963506569931128900, 271671285193952150881800, 271690649141454818647100, 271710797636059173940200,
  271761354508670206876400, 271831390176164600749500, 271891336276514527480900, 271921161356529046555000, 271930739491046380596000,
  271941111147334666831200, 272071161356529046555000, 272110811881597121026600, 272240952331283268149800, 272251178722878451638900,
  272310513998775819144100, 272491172053741001771600, 272571515452461450286300, 272601365044721772658900, 272641122269898177853700]

def emitE25_4 : List Nat := [
  272781446137743394291800, 272800997274106421077800, 272841068288582113929400, 272871221008563533642300, 272981365044721772658900,
  272991390176164600749500, 273081105188124946606700, 273151189642807648138100, 273230904638876059118900, 273310916056318719629400,
  273471515452461450286300, 273541115632391283366500, 273581365044721772658900, 273591125255194492821800, 273651172053741001771600,
  273671266961796471486300, 273681376823025338297200, 273721446137743394291800, 273841255183492905848000, 273861154360670185864000,
  273960948464369152234400, 274020591108801503749100, 274071251546728488760400, 274141076007545983042500, 274241079781578781327000,
  274250839817378967995900, 274261097247447186165700, 274311140502053857249200, 274420940672525442988800, 274540639172212705675200,
  274631089184473746154900, 274680804955916623302000, 274721140502053857249200, 274891097247447186165700, 274901005465818667866500,
  274910958427353247118500, 274930816242818708697500, 274940888827328292883200, 274950896728771287680400, 275060885925861306321700,
  275110768658228221701100, 275121083703650096655300, 275130997555400558739300, 275150937687229128020600, 275231354508670206876400,
  275271295730003716664300, 275301275662934170449200, 275311290323281589636800, 275331285193952150881800, 275421173679793088949600,
  275441290323281589636800, 275561295730003716664300, 275730618110983131467600, 275781147822394259578600, 275800814060913969233500,
  275830825631474836425700, 275861175332723284070700, 275970698448045437195400, 276020808295125029133000, 276040869854019650540200,
  276051275662934170449200, 276071365044721772658900, 276110781823895448156600, 276171187737988151068600, 276271114719142927039300,
  276310941473170232362800, 276411258957525704132700, 276531307508307282302700, 276551238193589226308200, 276561187737988151068600,
  276601238193589226308200, 276630957102830572116400, 276650537716733911094700, 276671019869755690160300, 276680560664115090397400,
  276750858855566696570700, 276791405591232583475400, 276820990750054234237600, 276830560664115090397400, 276861201903039857371300,
  276871033424304889782700, 276881125255194492821800, 276910990750054234237600, 276941113814159375047400, 276951168878871170313600,
  276981229232373357339500, 276991229232373357339500, 277000598386105967957900, 277121320861446544755000, 277130913228840872812800,
  277140664274605578812400, 277190786491409305169500, 277210807155631796406700, 277221235116423359632900, 277281016749918604574200,
  277350946247739606508300, 277391089891190468464000, 277421189642807648138100, 277430912143839270406000, 277440789014439283203600,
  277451092769086923468300, 277480936303655942755600, 277661262879597019460800, 277730955795622415381100, 277841255183492905848000,
  277851255183492905848000, 278010851923444216764700, 278070895198909731494100, 278131515452461450286300, 278190816288785154002400,
  278270716955093954028900, 278330621474702317107300, 278350659965035611893750, 278361050056426434534000, 278391064366510798601300,
  278410557524481576796600, 278490838833289984251400, 278500851008405152421300, 278520984873523311612500, 278610522600304424709350,
  278701109408160395644300, 278730925325833531303000, 278740777989559928391800, 278751423823388262870700, 278770813657054322265000,
  278801021646001324144300, 278820811574107311432200, 278881164297917567184200, 278911056955713583229000, 278931055940476436827200,
  278991162816408988670200, 279001515452461450286300, 279010828239651316387800, 279051295730003716664300, 279150730871711186505800,
  279271255183492905848000, 279340798363613599035700, 279411266961796471486300, 279461140502053857249200, 279471290323281589636800,
  279540799873806869873800, 279551423823388262870700, 279630909657032612604900, 279641187737988151068600, 279660713129992978619300,
  279690613867960025234400, 279731096486987247643800, 279740871357807386994300, 279781390176164600749500, 279791365044721772658900,
  279820485096982954516300, 279851090602937245350500, 279861134786212473254400, 279961365044721772658900, 280100882658783077366800,
  280141336276514527480900, 280201121294280683317300, 280230738219303933324960, 280241199752419335275000, 280341048169578004095600,
  280401515452461450286300, 280441154360670185864000, 280531037120824313129800, 280591017434852789131700, 280611048637962935338300,
  280631515452461450286300, 280651001872617745260100, 280700661410329696741900, 280711066588824477072400, 280790951795088954011200,
  280820719997679558241300, 280850997837488192903300, 280921390176164600749500, 280961137033498058460200, 281071275662934170449200,
  281131365044721772658900, 281181295730003716664300, 281220811574107311432200, 281291193564878963466200, 281321390176164600749500,
  281361515452461450286300, 281450873452968635572100, 281491049108552039079500, 281511376823025338297200, 281531206348216114454700,
  281541096486987247643800, 281650951261754356475000, 281701049108552039079500, 281731121294280683317300, 281801354508670206876400,
  281920968857640657087600, 281931081723387367037300, 281951015393965626010900, 281981001872617745260100, 282010728245063463599000,
  282041365044721772658900, 282070855329449577398600, 282121134786212473254400, 282160759496511849516300, 282221090602937245350500,
  282371354508670206876400, 282460820995536239801000, 282631154360670185864000, 282710936303655942755600, 282860867986261074636500,
  282871015393965626010900, 283040553612250857125000, 283100675870840925322550, 283161155721235391441800, 283170895198909731494100,
  283301021288219189356000, 283310728245063463599000, 283421142883118726621000, 283461515452461450286300, 283691177013435115709000,
  283711285193952150881800, 283781255183492905848000, 283821218411014893316100, 283851301445845100659100, 283881290323281589636800,
  283891446137743394291800, 283920959576791189692000, 283930883916661298052900, 283991218411014893316100, 284040995051792742606800,
  284081134786212473254400, 284141255183492905848000, 284151301445845100659100, 284171354508670206876400, 284181172053741001771600,
  284220953231379354047400, 284311086406517335447200, 284360846991288683493500, 284480796989546178554900, 284500807155631796406700,
  284511515452461450286300, 284581244647441340065300, 284591036287486157215400, 284601121294280683317300, 284790871357807386994300,
  284971515452461450286300, 285001295730003716664300, 285041423823388262870700, 285141175332723284070700, 285160661410329696741900,
  285251075392159425604500, 285260781791327462198600, 285511048637962935338300, 285671066588824477072400, 285721063818564222138700,
  285771266961796471486300, 285800828239651316387800, 286081376823025338297200, 286091390176164600749500, 286291015393965626010900,
  286321109408160395644300, 286390485096982954516300, 286441017434852789131700, 286511446137743394291800, 286570959576791189692000,
  286701290323281589636800, 286811162816408988670200, 286891164297917567184200, 286991405591232583475400, 287011515452461450286300,
  287071515452461450286300, 287341063818564222138700, 287481150386637320912400, 287600883916661298052900, 287710867986261074636500,
  287790767805223333895800, 287830789999322376124100, 287840906661416912662900, 287890835212985117855300, 287901024186972876681200,
  287921034234025913044500, 287970916807260921842500, 287980916807260921842500, 288090856835295964818800, 288101255183492905848000,
  288140796121452408511900, 288181320861446544755000, 288201108549786026505200, 288211092769086923468300, 288441138176367640822500,
  288450733770464873831100, 288460749323285494799700, 288561133681228854595900, 288570525745762976965700, 288580688182630031187100,
  288661065471494417259800, 288670994503846166144200, 288721090602937245350500, 288791185868774849853400, 288891344977652226443800,
  288910933444168415050200, 288950819797917135129400, 289031098785939070113600, 289051280314935733938600, 289071405591232583475400,
  289081090602937245350500, 289090884097656822576800, 289110889494315043794000, 289160994503846166144200, 289190975184723263058300,
  289381223675388241858500, 289661046317673227372000, 289760926703265777786000, 289820963306369664061700, 290061423823388262870700,
  290170819797917135129400, 290221390176164600749500, 290280906321473242516400, 290310844217613186333600, 290421301445845100659100,
  290601301445845100659100, 290660982664844571328200, 290761328272243760127200, 290810845317868784377000, 290871135903542533066900,
  291050884097656822576800, 291091474905950639470000, 291280789999322376124100, 291381098785939070113600, 291411061656317820822000,
  291451405591232583475400, 291510792070825019983000, 291571204100930529248900, 291591185868774849853400, 291650933444168415050200,
  291721280314935733938600, 291771238193589226308200, 291801090602937245350500, 291901354508670206876400, 292000856835295964818800,
  292111065471494417259800, 292261067152206248897900, 292290674113759181221450, 292330962708162496306800, 292370901895972342112500,
  292380749700555454188500, 292390691361207281396400, 292400837573971681768500, 292410988409245144436200, 292420691361207281396400,
  292431515452461450286300, 292460919351927487959000, 292540817911068704691100, 292550652328870704596600, 292560941312527627535500,
  292600707863098420400600, 292611112028397635046800, 292661095732266684105500, 292701344977652226443800, 292721112028397635046800,
  292730920258082555716500, 292750832743723858818000, 292821084372548911734800, 292871000123302000508500, 292890493211071527580900,
  292981150386637320912400, 293051016069643872298800, 293121201903039857371300, 293131295730003716664300, 293221185868774849853400,
  293461185868774849853400, 293561011433051816506400, 293590868527429770709000, 293641365044721772658900, 293660692049040681082200,
  293681313962159396059800, 293760692049040681082200, 293781328272243760127200, 293921167328452516717000, 293941262879597019460800,
  293990950203543423421200, 294221130437701279280400, 294250874929615647202200, 294261131507230190955200, 294271336276514527480900,
  294320984873523311612500, 294360993146973245537300, 294411184033860983033800, 294501235116423359632900, 294540959769655280332600,
  294671285193952150881800, 294811121294280683317300, 294820942767686691566600, 294830915931708111604700, 294841108549786026505200,
  294860737987895394169800, 294920963707171803815600, 294991131507230190955200, 295031061656317820822000, 295051313962159396059800,
  295080874929615647202200, 295091130437701279280400, 295180849715562322881000, 295491092041810990560400, 295541365044721772658900]

def emitE25_5 : List Nat := [
  295570959769655280332600, 295600874270634679296600, 295621092041810990560400, 295630737987895394169800, 295661266961796471486300,
  295721474905950639470000, 295750527090819160914700, 295770938152707082519000, 295790670208330031632300, 295851285193952150881800,
  296091045404424871044700, 296111405591232583475400, 296150877864836848454800, 296161584767179506280900, 296261165801705303638300,
  296321083039195824788300, 296401446137743394291800, 296451177013435115709000, 296621232131127044664600, 296640817351887378113400,
  296691244647441340065300, 296770854990351253143000, 296941584767179506280900, 296990593339268144848200, 297011165801705303638300,
  297020559289376886478800, 297111584767179506280900, 297480847178964684779600, 297500990225118645623300, 297611157100567604675200,
  297811515452461450286300, 297851028315138774011600, 297860933444168415050200, 297901474905950639470000, 297911328272243760127200,
  298071165801705303638300, 298081001872617745260100, 298270817027136454800000, 298331584767179506280900, 298521446137743394291800,
  298591285193952150881800, 298631215879234094887300, 298720877864836848454800, 298851165801705303638300, 299160852450107711934000,
  299221285193952150881800, 299230955056247512887200, 299241376823025338297200, 299261016069643872298800, 299341307508307282302700,
  299351184033860983033800, 299420936609466578637800, 299430849330946464133200, 299641184033860983033800, 299731307508307282302700,
  299771584767179506280900, 299801301445845100659100, 299830560155244359008500, 299860564470947800594800, 299891061122983223285800,
  299920567507355566033500, 299951180462052722825700, 300000782019526420232700, 300010786833289980048100, 300020867678331655030300,
  300050727599041836250100, 300071175332723284070700, 300080925462726092037000, 300110720613932939096400, 300280559440804027910500,
  300311320861446544755000, 300360958809033099788600, 300411474905950639470000, 300440884369765834012800, 300451118423270095074000,
  300501275662934170449200, 300530660825817560091900, 300541365044721772658900, 300590720613932939096400, 300640806070479244793800,
  300680906095484445772700, 300700903203180498847800, 300861010787888288357400, 300870906095484445772700, 300901344977652226443800,
  300951015057830855740300, 300971026417548628111000, 301001584767179506280900, 301030776064632439510800, 301111301445845100659100,
  301121275662934170449200, 301131016069643872298800, 301151313962159396059800, 301161100348470860421700, 301230964109586833788200,
  301241280314935733938600, 301260997555400558739300, 301271474905950639470000, 301291172053741001771600, 301311376823025338297200,
  301321258957525704132700, 301331165801705303638300, 301361107698717059714400, 301370959576791189692000, 301411116554056793858900,
  301420971427375206615900, 301461376823025338297200, 301471584767179506280900, 301490661654888390409700, 301510789893334024919800,
  301571390176164600749500, 301621328272243760127200, 301641344977652226443800, 301650944079180899349300, 301681211000217677944000,
  301710823188072302697500, 301741191584616233848200, 301781365044721772658900, 301791232131127044664600, 301831446137743394291800,
  301841301445845100659100, 301871110273966669955700, 301921262879597019460800, 301961151693845477647700, 302011271217757913365900,
  302021271217757913365900, 302081185868774849853400, 302191474905950639470000, 302201405591232583475400, 302211016069643872298800,
  302321313962159396059800, 302391290323281589636800, 302410997555400558739300, 302440862073577656952000, 302461235116423359632900,
  302471301445845100659100, 302491001872617745260100, 302511177013435115709000, 302601474905950639470000, 302661313962159396059800,
  302701140502053857249200, 302711244647441340065300, 302740776064632439510800, 302781301445845100659100, 302791110273966669955700,
  302840914694068551499800, 302941223675388241858500, 302961275662934170449200, 303001201903039857371300, 303061328272243760127200,
  303071146564516038892700, 303111280314935733938600, 303161146564516038892700, 303171244647441340065300, 303181140502053857249200,
  303211177013435115709000, 303311344977652226443800, 303320771203189170842200, 303330806444777872677100, 303381030249435058324500,
  303400705375637143113200, 303430860630551174049000, 303820729376102071140850, 303841172053741001771600, 303850929089343890476500,
  303940929089343890476500, 303991045860006524630700, 304021097247447186165700, 304051113814159375047400, 304060898910676027144400,
  304081285193952150881800, 304100615725370826941500, 304151123255127822155000, 304160819750309421780800, 304170761896099626912100,
  304180943749691309664100, 304200996156776361265300, 304220886295547494454400, 304230930375994949801600, 304240642553197347307300,
  304280930375994949801600, 304301123255127822155000, 304310798171638112930600, 304331241368459057766100, 304350761896099626912100,
  304360642553197347307300, 304391112028397635046800, 304421180462052722825700, 304460589149692024767400, 304501070600823856014800,
  304521213409972835850000, 304560737736058954670200, 304621107698717059714400, 304650723680612778393600, 304731008248069227796300,
  304751584767179506280900, 304951065471494417259800, 304961354508670206876400, 305171584767179506280900, 305181029471221014119000,
  305191005771162416555400, 305201191584616233848200, 305240791136910186084800, 305260671453649399559700, 305281000703013768941000,
  305451082379127421653200, 305550683030956006910900, 305630779187934408503850, 305711405591232583475400, 305901155721235391441800,
  306061354508670206876400, 306291098013734460722500, 306511122269898177853700, 306521082379127421653200, 306831133681228854595900,
  306901295730003716664300, 306930751970393675732000, 306970861566146339805000, 307010989183442559797800, 307021275662934170449200,
  307070632801017553136400, 307170973177966957977400, 307181158499191802149200, 307190737610378167284600, 307210749252705560097000,
  307220964513627787488700, 307400899860551242935000, 307420989963680588216200, 307461122269898177853700, 307481390176164600749500,
  307551344977652226443800, 307581390176164600749500, 307591474905950639470000, 307721515452461450286300, 307751376823025338297200,
  307821055940476436827200, 307840642869255797529800, 307890973177966957977400, 308131111147334666831200, 308271092769086923468300,
  308311122269898177853700, 308441290323281589636800, 308551515452461450286300, 308610838545685529461900, 308621204100930529248900,
  308650885282180922973800, 308671405591232583475400, 308710937687229128020600, 308751137033498058460200, 308791091319786193211700,
  308811241368459057766100, 308831238193589226308200, 308871262879597019460800, 308970896216212502799000, 308990883735992775557800,
  309001307508307282302700, 309080749252705560097000, 309130912504200020736000, 309171133681228854595900, 309321446137743394291800,
  309371258957525704132700, 309380989963680588216200, 309511137033498058460200, 309521108549786026505200, 309561320861446544755000,
  309621235116423359632900, 309671118423270095074000, 309701104365075032955300, 309770967597119765189400, 309900642869255797529800,
  309951446137743394291800, 310010838545685529461900, 310140737610378167284600, 310191055940476436827200, 310201158499191802149200,
  310340851464878067632600, 310360823138823348242400, 310380765040842364847200, 310491195585149695218200, 310620868993631081290200,
  310631199752419335275000, 310691336276514527480900, 310700683030956006910900, 310711255183492905848000, 310721201903039857371300,
  310771040525408454101500, 310791405591232583475400, 310800592668819490992950, 310851405591232583475400, 310960951616994516911800,
  311031035873406890612200, 311051129379490346226700, 311081035873406890612200, 311091063818564222138700, 311170951616994516911800,
  311190990487241993610800, 311431584767179506280900, 311461063818564222138700, 311500823138823348242400, 311630759262289231051300,
  311650959576791189692000, 311661151693845477647700, 311671376823025338297200, 311681121294280683317300, 311690973398961523057700,
  311711376823025338297200, 311741092769086923468300, 311761584767179506280900, 311790814782938766582300, 311810662629257597140950,
  311850722413856787524460, 311861266961796471486300, 311891376823025338297200, 311920995602758323703800, 311990845256424850032300,
  312031197647078415491800, 312041173679793088949600, 312071320861446544755000, 312150623607515975251600, 312160741603649200821700,
  312241100348470860421700, 312271055436697033831600, 312291177013435115709000, 312321262879597019460800, 312351365044721772658900,
  312370739940004911299300, 312401092769086923468300, 312430549400074073025100, 312460739940004911299300, 312551584767179506280900,
  312581376823025338297200, 312621076626743007834500, 312780662629257597140950, 312810741603649200821700, 312870978854859948101100,
  312910849523069481922600, 312920961719034748432700, 312950913350126515333600, 313090623607515975251600, 313131301445845100659100,
  313191130437701279280400, 313291301445845100659100, 313301177013435115709000, 313480857180719451627700, 313501068861649584828000,
  313521584767179506280900, 313531182232010432765900, 313540692942320402710700, 313611074172632116222700, 313631584767179506280900,
  313641167328452516717000, 313731108549786026505200, 313770983395663902000700, 313821017091799279452700, 313830896114015253229800,
  313890890165780396358000, 313910892305939901424800, 313921474905950639470000, 313981195585149695218200, 314010890165780396358000,
  314021187737988151068600, 314070983395663902000700, 314230995051792742606800, 314291108549786026505200, 314311195585149695218200,
  314341584767179506280900, 314351344977652226443800, 314490697771128453885600, 314560744791170053866700, 314610802162778154384300,
  314691101935805776050800, 314710711746619953182000, 314810928381626853068000, 314851584767179506280900, 314871055940476436827200,
  314941161356529046555000, 314961266961796471486300, 314991046777444152234800, 315051008562041228263200, 315080850813409965513400,
  315131275662934170449200, 315151073568400670626500, 315201130437701279280400, 315260921172523937616300, 315321004555341968574600,
  315461131507230190955200, 315480920518499369555200, 315580850813409965513400, 315611057981363599948000, 315630962113512577534300,
  315651046777444152234800, 315671014056153031393300, 315681135903542533066900, 315690709509032591592400, 315700867678331655030300,
  315740561596021476196300, 315791248037596507633400, 315811042713679579052200, 315981226415285660669800, 316051266961796471486300]

def emitE25_6 : List Nat := [
  316071115632391283366500, 316091125255194492821800, 316141042272177758140600, 316161036287486157215400, 316271131507230190955200,
  316291255183492905848000, 316311042713679579052200, 316351223675388241858500, 316361134786212473254400, 316371142883118726621000,
  316390814692400055101000, 316490710127346095376600, 316571244647441340065300, 316591271217757913365900, 316610825581008017287500,
  316650808380050724258600, 316800683055216074958100, 316811474905950639470000, 316840881152330131227200, 316861157100567604675200,
  316870973620445556013000, 316890709509032591592400, 316921238193589226308200, 316991155721235391441800, 317051199752419335275000,
  317171285193952150881800, 317181328272243760127200, 317211248037596507633400, 317261018124510695037600, 317291142883118726621000,
  317350943749691309664100, 317421232131127044664600, 317511405591232583475400, 317571155721235391441800, 317771036287486157215400,
  317831003354126323774200, 317861201903039857371300, 317871271217757913365900, 317990997274106421077800, 318051042272177758140600,
  318060957857551135654700, 318071102739022945777200, 318091150386637320912400, 318111018124510695037600, 318201125255194492821800,
  318210774629712383422700, 318331223675388241858500, 318391150386637320912400, 318400920518499369555200, 318521142883118726621000,
  318541244647441340065300, 318590771408437740184200, 318670604212788685680700, 318681584767179506280900, 318690970563438947545300,
  318810820084040363232700, 318891275662934170449200, 318900865473757384701000, 318930974735284304274400, 318951251546728488760400,
  319011365044721772658900, 319031069438020056503000, 319091072967798264605400, 319141120328089592143600, 319180861061276893807000,
  319210977002955171377400, 319231446137743394291800, 319291013393898955343900, 319340842709288965200700, 319461094983199511189700,
  319571004857914060228200, 319580797407400537726800, 319641206348216114454700, 319661120328089592143600, 319671201903039857371300,
  319681235116423359632900, 319750861061276893807000, 319861365044721772658900, 319950563761908307339800, 320000599437288410996800,
  320021423823388262870700, 320040691982696885110650, 320050839353071691613000, 320091213409972835850000, 320110839410992341943500,
  320131053446581602102000, 320160876344537296489200, 320230911665369458072500, 320250797827008248571900, 320260657238673444624300,
  320270920518499369555200, 320320589130720292591400, 320331127296081655942600, 320340862876208744374800, 320391208647167936924700,
  320431258957525704132700, 320471241368459057766100, 320480978621487613479000, 320501423823388262870700, 320510930088638430228400,
  320571515452461450286300, 320581184033860983033800, 320680755964022728634300, 320701172053741001771600, 320800945743112799746000,
  320851168878871170313600, 320931336276514527480900, 320970753063831857040500, 321021376823025338297200, 321040992074576909239700,
  321101101138988811133000, 321130561390974369442200, 321140833015094445977800, 321211086406517335447200, 321311320861446544755000,
  321470670582441953192600, 321601045860006524630700, 321620947435200548579600, 321721197647078415491800, 321730787831405304646200,
  321770952870368131637400, 321780703795825455454100, 321801139332449880930100, 321840984378472795626900, 321871175332723284070700,
  321911070017731824935600, 322021208647167936924700, 322100732588915131276300, 322180571513814555985700, 322211515452461450286300,
  322221016069643872298800, 322270764382042287893000, 322320957102830572116400, 322390906547973905601600, 322440976089706815050200,
  322721474905950639470000, 322910846554742932529600, 322990895097746344009700, 323021515452461450286300, 323170995602758323703800,
  323180637666089988169500, 323231515452461450286300, 323261584767179506280900, 323400693722103864615100, 323501280314935733938600,
  323530979558262613839200, 323610921567001766717900, 323621057467223649906200, 323651059017642303502700, 323711290323281589636800,
  323960891132905922875900, 323991086406517335447200, 324031244647441340065300, 324060943421283789545100, 324120971210690398107000,
  324180839353071691613000, 324191423823388262870700, 324200943421283789545100, 324220691982696885110650, 324230657238673444624300,
  324260599437288410996800, 324271213409972835850000, 324280906547973905601600, 324330911665369458072500, 324340952870368131637400,
  324351053446581602102000, 324380984378472795626900, 324390920518499369555200, 324400797827008248571900, 324410839410992341943500,
  324421127296081655942600, 324450876344537296489200, 324470571513814555985700, 324481184033860983033800, 324491423823388262870700,
  324510976089706815050200, 324520755964022728634300, 324530930088638430228400, 324540978621487613479000, 324550693722103864615100,
  324571474905950639470000, 324581172053741001771600, 324611515452461450286300, 324630670582441953192600, 324660992074576909239700,
  324670945743112799746000, 324681336276514527480900, 324691280314935733938600, 324721057467223649906200, 324731376823025338297200,
  324760753063831857040500, 324771168878871170313600, 324790561390974369442200, 324811320861446544755000, 324821086406517335447200,
  324830979558262613839200, 324890637666089988169500, 324900732588915131276300, 324930891132905922875900, 324990921567001766717900,
  325000787831405304646200, 325011070017731824935600, 325021197647078415491800, 325031515452461450286300, 325040947435200548579600,
  325091175332723284070700, 325111045860006524630700, 325121139332449880930100, 325180971210690398107000, 325211515452461450286300,
  325261016069643872298800, 325340957102830572116400, 325360764382042287893000, 325410895097746344009700, 325441086406517335447200,
  325521244647441340065300, 325531515452461450286300, 325541584767179506280900, 325641290323281589636800, 325681000412737803144800,
  325701161356529046555000, 325731218411014893316100, 325920981219036253805200, 325930703795825455454100, 325991007623067193279300,
  326020968646447336773200, 326071584767179506280900, 326091258957525704132700, 326170952510655513552400, 326180949156413436691800,
  326220686460850568244200, 326240968646447336773200, 326260894392453747821000, 326291446137743394291800, 326451007623067193279300,
  326500874847005150971700, 326521232131127044664600, 326540983885860962021400, 326601184033860983033800, 326661109408160395644300,
  326701446137743394291800, 326731515452461450286300, 326760765870493141393300, 326801515452461450286300, 326810551487240794423600,
  326901446137743394291800, 326971211000217677944000, 327011051979562627322700, 327050962509552699144000, 327091165801705303638300,
  327181390176164600749500, 327221010787888288357400, 327281223675388241858500, 327361022727092934565900, 327551354508670206876400,
  327611223675388241858500, 327631173679793088949600, 327640835046457185949200, 327681271217757913365900, 327690838144423884732800,
  327711141685499621949500, 327730457879436552430000, 327791474905950639470000, 327811191584616233848200, 327841071187335801254600,
  327891235116423359632900, 327910891035771383912800, 327921584767179506280900, 327931328272243760127200, 327961344977652226443800,
  328190923160660992999000, 328221474905950639470000, 328271096486987247643800, 328440843551146011760300, 328451474905950639470000,
  328520931533750284045900, 328541140502053857249200, 328620715116155587291500, 328790931533750284045900, 328820660428356904042500,
  328870843551146011760300, 328891474905950639470000, 328931061656317820822000, 329021140502053857249200, 329050750292904064526200,
  329071177013435115709000, 329080945074213984666200, 329151313962159396059800, 329181218411014893316100, 329201173679793088949600,
  329221131507230190955200, 329231275662934170449200, 329250895706267491564200, 329280870880479511728500, 329290587195660852980000,
  329300868217832000196300, 329320785607951299471600, 329330876764529514021800, 329371086406517335447200, 329380886110533565638100,
  329391515452461450286300, 329431320861446544755000, 329451208647167936924700, 329460873127765096934300, 329481000123302000508500,
  329541056446806632482000, 329561275662934170449200, 329571189642807648138100, 329581106854830195128000, 329590912865864067754800,
  329601201903039857371300, 329611221008563533642300, 329630983885860962021400, 329641111147334666831200, 329661016409202772412700,
  329720899966652048644500, 329740835046457185949200, 329821405591232583475400, 329861290323281589636800, 329871213409972835850000,
  329880963908176896618000, 329891255183492905848000, 329900703945212994440000, 329931020576472412469500, 330091011757201208923400,
  330140801130203451768400, 330161021288219189356000, 330180926703265777786000, 330210598547509694456100, 330260840342314556610300,
  330291221008563533642300, 330301295730003716664300, 330320761231115130946000, 330330761231115130946000, 330340980503896138042700,
  330390802122865960679500, 330401185868774849853400, 330410763918004332242700, 330421515452461450286300, 330441515452461450286300,
  330461238193589226308200, 330481229232373357339500, 330500833943302038414600, 330651515452461450286300, 330710988924710203302700,
  330741307508307282302700, 330800907688237115382900, 330811201903039857371300, 330861211000217677944000, 330961172053741001771600,
  330981151693845477647700, 330991151693845477647700, 331021106854830195128000, 331040916932968040847600, 331050975862691961596200,
  331080823138823348242400, 331090999546931528833400, 331251280314935733938600, 331260763918004332242700, 331291423823388262870700,
  331310912865864067754800, 331331301445845100659100, 331341446137743394291800, 331361011433051816506400, 331371133681228854595900,
  331390833943302038414600, 331401285193952150881800, 331440870880479511728500, 331450896011922339819100, 331460844339267702554000,
  331471090602937245350500, 331501059539836701617900, 331510888070465644882600, 331520868760258746668200, 331601262879597019460800,
  331620887039045343206000, 331670919480876570946200, 331780785607951299471600, 331790973842421229844200, 331800783764426658107500,
  331811193564878963466200, 331840801130203451768400, 331901229232373357339500, 331931090602937245350500, 332031223675388241858500,
  332131016409202772412700, 332180872722742267032100, 332221290323281589636800, 332250907688237115382900, 332261584767179506280900,
  332291185868774849853400, 332401151693845477647700, 332470802122865960679500, 332481515452461450286300, 332510706045146643351100,
  332531244647441340065300, 332601405591232583475400, 332611049108552039079500, 332671285193952150881800, 332680955610265550448900]

def emitE25_7 : List Nat := [
  332761235116423359632900, 332850926703265777786000, 332861180462052722825700, 332881021646001324144300, 332890959000420718017000,
  332901040959248613961400, 332921031033752804427200, 332930867218208143858700, 332981515452461450286300, 333081165801705303638300,
  333100904194924164582200, 333111021646001324144300, 333220965530930558793600, 333231258957525704132700, 333241354508670206876400,
  333280789928650995090900, 333290869071543044717200, 333331197647078415491800, 333340861493865888519400, 333351154360670185864000,
  333370744476775004869800, 333391365044721772658900, 333510765565488052593200, 333551515452461450286300, 333690869071543044717200,
  333751313962159396059800, 333820789928650995090900, 333871365044721772658900, 333901266961796471486300, 333911053940409766160400,
  333921262879597019460800, 333931262879597019460800, 333940562951949874501300, 334020742919457658572800, 334051584767179506280900,
  334061320861446544755000, 334071446137743394291800, 334100683055216074958100, 334191068861649584828000, 334211180462052722825700,
  334221226415285660669800, 334260966558688834617600, 334321320861446544755000, 334361376823025338297200, 334371092041810990560400,
  334451185868774849853400, 334460922893281154558800, 334481365044721772658900, 334491213409972835850000, 334501081071919264917900,
  334521584767179506280900, 334551120328089592143600, 334570662451391937601100, 334591114719142927039300, 334631255183492905848000,
  334651474905950639470000, 334691006077441369610000, 334790981698653480154500, 334831255183492905848000, 334851199752419335275000,
  334871153018368152649800, 334891077876759284257700, 334911068861649584828000, 334921050533754309799800, 334931262879597019460800,
  334950804056850493682900, 335021313962159396059800, 335051280314935733938600, 335071258957525704132700, 335091120328089592143600,
  335101037540112139133400, 335151515452461450286300, 335191037961165392767700, 335210914203270020280600, 335271147822394259578600,
  335390881152330131227200, 335401056955713583229000, 335411104365075032955300, 335451474905950639470000, 335500915434812679286000,
  335561229232373357339500, 335591376823025338297200, 335631211000217677944000, 335751059017642303502700, 335801197647078415491800,
  335861584767179506280900, 335891446137743394291800, 335900848566124380307400, 335921101935805776050800, 335931423823388262870700,
  336061133681228854595900, 336090743695084815708800, 336101133681228854595900, 336161423823388262870700, 336181000412737803144800,
  336201376823025338297200, 336261211000217677944000, 336271446137743394291800, 336281423823388262870700, 336301474905950639470000,
  336311251546728488760400, 336321201903039857371300, 336331180462052722825700, 336351103548743969039000, 336361376823025338297200,
  336431071777308013973400, 336470659782228999191300, 336550865548973634956400, 336611280314935733938600, 336731153018368152649800,
  336740859278698498547100, 336781313962159396059800, 336831109408160395644300, 336860915434812679286000, 336981211000217677944000,
  337031255183492905848000, 337041474905950639470000, 337131313962159396059800, 337140950379136093647700, 337181584767179506280900,
  337191365044721772658900, 337221221008563533642300, 337251185868774849853400, 337281446137743394291800, 337291280314935733938600,
  337350951973501133361400, 337381137033498058460200, 337400787900609459657400, 337481474905950639470000, 337560739961434248143300,
  337591232131127044664600, 337701244647441340065300, 337750917311040324838300, 337781307508307282302700, 337931423823388262870700,
  337951390176164600749500, 337960927819037464851200, 338021313962159396059800, 338051218411014893316100, 338071405591232583475400,
  338201301445845100659100, 338211014056153031393300, 338281365044721772658900, 338290792070825019983000, 338320871278094349692400,
  338411405591232583475400, 338481193564878963466200, 338521137033498058460200, 338530762002908715838000, 338650733931755231377550,
  338781258957525704132700, 338790849779809032447100, 338821313962159396059800, 338831083039195824788300, 338841474905950639470000,
  338891584767179506280900, 338911027551776288504500, 338940981698653480154500, 338971271217757913365900, 339000943585352735291100,
  339051071777308013973400, 339071474905950639470000, 339091054935442851477100, 339111376823025338297200, 339221141685499621949500,
  339451167328452516717000, 339480911546108859560200, 339531405591232583475400, 339701167328452516717000, 339761584767179506280900,
  339801199752419335275000, 339831213409972835850000, 339880870089961561017200, 339930977002955171377400, 339950886295547494454400,
  340131091319786193211700, 340151376823025338297200, 340161328272243760127200, 340281258957525704132700, 340300950379136093647700,
  340451423823388262870700, 340471165801705303638300, 340671132588321801376800, 340710927120222601458400, 340851071777308013973400,
  340921161356529046555000, 340931071777308013973400, 341071189642807648138100, 341091048637962935338300, 341201244647441340065300,
  341210935998777657819800, 341220966972768101220800, 341261474905950639470000, 341361446137743394291800, 341521423823388262870700,
  341541376823025338297200, 341641101138988811133000, 341711320861446544755000, 341741005465818667866500, 341801142883118726621000,
  341831040959248613961400, 341841251546728488760400, 341861376823025338297200, 342031215879234094887300, 342071584767179506280900,
  342141423823388262870700, 342170871278094349692400, 342181042272177758140600, 342221320861446544755000, 342230896728771287680400,
  342311328272243760127200, 342331295730003716664300, 342341201903039857371300, 342531091319786193211700, 342550812588001824527200,
  342591069438020056503000, 342611185868774849853400, 342681187737988151068600, 342690742919457658572800, 342761096486987247643800,
  342770659782228999191300, 342811290323281589636800, 342821320861446544755000, 342990937842147826703600, 343100922893281154558800,
  343111153018368152649800, 343141101138988811133000, 343211271217757913365900, 343261213409972835850000, 343271221008563533642300,
  343301069438020056503000, 343490950203543423421200, 343621328272243760127200, 343671014056153031393300, 343820888070465644882600,
  343830952152232190770900, 343850933741345453965900, 343890719280579852149900, 343941031033752804427200, 343951031033752804427200,
  343960952152232190770900, 343990655253082139416100, 344071071187335801254600, 344110731874768077087300, 344171232131127044664600,
  344250983395663902000700, 344271262879597019460800, 344300988409245144436200, 344311584767179506280900, 344321083039195824788300,
  344330978621487613479000, 344421168878871170313600, 344441223675388241858500, 344511090602937245350500, 344531001872617745260100,
  344601336276514527480900, 344670980029961601653100, 344681155721235391441800, 344711248037596507633400, 344741027551776288504500,
  344801515452461450286300, 344811162816408988670200, 344841208647167936924700, 344861336276514527480900, 345001226415285660669800,
  345030918709664522312300, 345051307508307282302700, 345070859208052080914300, 345101104365075032955300, 345111313962159396059800,
  345121262879597019460800, 345131446137743394291800, 345211001578931777929000, 345231034234025913044500, 345321238193589226308200,
  345411320861446544755000, 345421135903542533066900, 345471285193952150881800, 345521376823025338297200, 345531307508307282302700,
  345551248037596507633400, 345581066028598922205400, 345601098785939070113600, 345620956540504816680200, 345671221008563533642300,
  345691584767179506280900, 345701313962159396059800, 345731091319786193211700, 345781164297917567184200, 345791092769086923468300,
  345811248037596507633400, 345831241368459057766100, 345880989702924247508200, 345931049581366158674300, 345941365044721772658900,
  345971320861446544755000, 346061390176164600749500, 346121112028397635046800, 346310996993601328316900, 346321320861446544755000,
  346331405591232583475400, 346381258957525704132700, 346431301445845100659100, 346451083039195824788300, 346471144095254779855600,
  346561030640824990438300, 346591244647441340065300, 346611474905950639470000, 346620988409245144436200, 346641232131127044664600,
  346780989702924247508200, 346801241368459057766100, 346831423823388262870700, 346901063273603745382300, 346921285193952150881800,
  346931162816408988670200, 346961213409972835850000, 346991584767179506280900, 347010612949024836159500, 347191211000217677944000,
  347221365044721772658900, 347281354508670206876400, 347321336276514527480900, 347331336276514527480900, 347460985371036775624000,
  347521106018005228076200, 347581079781578781327000, 347601320861446544755000, 347661354508670206876400, 347701193564878963466200,
  347891201903039857371300, 347961405591232583475400, 348020731874768077087300, 348061313962159396059800, 348091034641358451808200,
  348110978621487613479000, 348191405591232583475400, 348210996993601328316900, 348221584767179506280900, 348261344977652226443800,
  348291258957525704132700, 348381301445845100659100, 348471049581366158674300, 348511104365075032955300, 348701001872617745260100,
  348731515452461450286300, 348751135903542533066900, 348800835881883932934900, 348920565412998592984400, 348990551695764263700300,
  349000944409759712799300, 349030842052766165419300, 349051095732266684105500, 349070858925964446750200, 349090908494228813092900,
  349131042272177758140600, 349141182232010432765900, 349150775910998978657500, 349171344977652226443800, 349200623320053799159800,
  349211251546728488760400, 349230927399162810216300, 349241172053741001771600, 349281033424304889782700, 349351014722822167212300,
  349411376823025338297200, 349481018124510695037600, 349550777864246628785100, 349570912263815289596600, 349660841105452982858300,
  349721099564153114319000, 349781474905950639470000, 349870817305429769844600, 349930956540504816680200, 350090847241601705305500,
  350101134786212473254400, 350130762673062678141900, 350141168878871170313600, 350280918966074919206000, 350321275662934170449200,
  350330987386218319354600, 350361344977652226443800, 350370762673062678141900, 350391047703376693514500, 350410721322904359633100,
  350421184033860983033800, 350440963506569931128900, 350451376823025338297200, 350561112917292376771300, 350590952510655513552400,
  350650982422420210177600, 350701295730003716664300, 350741057467223649906200, 350881101138988811133000, 350911185868774849853400,
  351091077249797982898200, 351220963506569931128900, 351231184033860983033800, 351261167328452516717000, 351451376823025338297200]

def emitE25_8 : List Nat := [
  351581018124510695037600, 351661313962159396059800, 351670973842421229844200, 351681168878871170313600, 351781099564153114319000,
  351831172053741001771600, 351951446137743394291800, 351990653405307363312400, 352010910951930046685200, 352061235116423359632900,
  352110722990954872487550, 352150796838030998053800, 352220804546247881569200, 352420648736089651033100, 352580700203853872262200,
  352611072370781565955000, 352640654084012289786450, 352650722990954872487550, 352660654084012289786450, 352680796838030998053800,
  352700804546247881569200, 352721072370781565955000, 352730700203853872262200, 352820729897993658720000, 352941266961796471486300,
  352990899648686756906600, 353021035461035172226000, 353161266961796471486300, 353201035461035172226000, 353280671615820363259700,
  353351149096296837321600, 353360800854014678847500, 353380763131346267665200, 353470877355497886544600, 353501328272243760127200,
  353520682970331573408200, 353551376823025338297200, 353591320861446544755000, 353631040959248613961400, 353701083703650096655300,
  353730965530930558793600, 353771223675388241858500, 353801584767179506280900, 353861087785849548680900, 353931085045952129869400,
  354081446137743394291800, 354121011433051816506400, 354130983395663902000700, 354220790958306816585650, 354241206348216114454700,
  354271076626743007834500, 354301012736001845539700, 354330823089598636443600, 354410646834843073185200, 354611275662934170449200,
  354650816380781480637900, 354691266961796471486300, 354751149096296837321600, 354771184033860983033800, 354860742369098536875000,
  354881255183492905848000, 354920807660470899740300, 354941515452461450286300, 354980646649220340170500, 355060991542660761479800,
  355160950555037634165800, 355190751296017324189100, 355271061656317820822000, 355371405591232583475400, 355420604196246544538500,
  355481081071919264917900, 355581149096296837321600, 355651006384661273307100, 355781159917655301345000, 355821191584616233848200,
  355840848375829365698800, 355861073568400670626500, 355981157100567604675200, 356061258957525704132700, 356161026794196907658700,
  356281336276514527480900, 356570767635492034307800, 356720695671058228166100, 356760846306141188583400, 356860872641934181826800,
  356950989702924247508200, 356960574181499042894750, 357030983395663902000700, 357090816380781480637900, 357121215879234094887300,
  357220839584955853487900, 357311584767179506280900, 357450800854014678847500, 357481266961796471486300, 357531584767179506280900,
  357551328272243760127200, 357570877355497886544600, 357580574181499042894750, 357590763131346267665200, 357600682970331573408200,
  357681223675388241858500, 357691376823025338297200, 357700604196246544538500, 357721320861446544755000, 357740965530930558793600,
  357751083703650096655300, 357761040959248613961400, 357770767635492034307800, 357781085045952129869400, 357800983395663902000700,
  357820695671058228166100, 357841446137743394291800, 357851584767179506280900, 357861087785849548680900, 357890790958306816585650,
  357911011433051816506400, 357930989702924247508200, 357971012736001845539700, 357990823089598636443600, 358021255183492905848000,
  358031275662934170449200, 358050646834843073185200, 358061184033860983033800, 358111076626743007834500, 358210742369098536875000,
  358230807660470899740300, 358280646649220340170500, 358291515452461450286300, 358341191584616233848200, 358351215879234094887300,
  358361405591232583475400, 358380991542660761479800, 358430751296017324189100, 358481061656317820822000, 358500950555037634165800,
  358510848375829365698800, 358531081071919264917900, 358591073568400670626500, 358611006384661273307100, 358661159917655301345000,
  358671149096296837321600, 358681157100567604675200, 358731258957525704132700, 358751026794196907658700, 358841336276514527480900,
  358890846306141188583400, 358950744431942007033100, 359100769662684937778500, 359131258957525704132700, 359301066588824477072400,
  359370597459190494810600, 359460886202997742360000, 359471241368459057766100, 359480942767686691566600, 359601295730003716664300,
  359610972517898554842300, 359701145322264039037000, 359731423823388262870700, 359800788734816591396800, 359870915931708111604700,
  359970898596045458207700, 359981110273966669955700, 360000965326640395813700, 360010983885860962021400, 360021275662934170449200,
  360071584767179506280900, 360080651396400913634200, 360091003952930508236500, 360101405591232583475400, 360111110273966669955700,
  360120900072865547743000, 360201002758886471044700, 360240717074354552541200, 360270722467818476035900, 360280837801762213068000,
  360310882480370898016600, 360331251546728488760400, 360390677981707138338100, 360401101935805776050800, 360420843974747250320900,
  360510953412374878571400, 360600983640462065864600, 360621087093805264223400, 360661047239338737864300, 360671295730003716664300,
  360681164297917567184200, 360700955056247512887200, 360740564515430138133740, 360760992074576909239700, 360840991277759944322000,
  360921157100567604675200, 360930857180719451627700, 361061072967798264605400, 361091474905950639470000, 361111127296081655942600,
  361151405591232583475400, 361250898596045458207700, 361261110273966669955700, 361270965326640395813700, 361291275662934170449200,
  361300983885860962021400, 361310900072865547743000, 361321047239338737864300, 361330968857640657087600, 361340992074576909239700,
  361350651396400913634200, 361360564515430138133740, 361371003952930508236500, 361381405591232583475400, 361391584767179506280900,
  361411157100567604675200, 361431110273966669955700, 361451164297917567184200, 361461251546728488760400, 361480837801762213068000,
  361491002758886471044700, 361510717074354552541200, 361520882480370898016600, 361530722467818476035900, 361560843974747250320900,
  361581101935805776050800, 361631405591232583475400, 361640677981707138338100, 361710955056247512887200, 361751087093805264223400,
  361760983640462065864600, 361820991277759944322000, 361870857180719451627700, 361901072967798264605400, 361931474905950639470000,
  361941127296081655942600, 361961147822394259578600, 362081235116423359632900, 362151170453706867127500, 362341095732266684105500,
  362590807491907859406800, 362750976089706815050200, 362861085723920828407300, 362911474905950639470000, 362991182232010432765900,
  363051140502053857249200, 363170824726946056240900, 363191005161404429743600, 363210721911613579311100, 363281238193589226308200,
  363350574414556492756740, 363391244647441340065300, 363431290323281589636800, 363811206348216114454700, 363941079781578781327000,
  364051474905950639470000, 364201003354126323774200, 364240875842864003529400, 364481248037596507633400, 364601155721235391441800,
  364741290323281589636800, 364761376823025338297200, 364851584767179506280900, 364931474905950639470000, 365230681514316440275200,
  365271020222489741957000, 365441020222489741957000, 365540556001086988613800, 365560993687515102228100, 365570534735524964033300,
  365751146564516038892700, 366000902112657150621500, 366061046777444152234800, 366171076626743007834500, 366280854719898079501000,
  366350798980423573100600, 366370995326896079795800, 366381320861446544755000, 366451280314935733938600, 366461241368459057766100,
  366490900819535683396600, 366500803488897648522700, 366550748037169322118800, 366671423823388262870700, 366711180462052722825700,
  366741175332723284070700, 366761112028397635046800, 366770993958885689387700, 366781208647167936924700, 366811221008563533642300,
  366851071777308013973400, 366861126270431639223600, 367081221008563533642300, 367100556001086988613800, 367120993687515102228100,
  367161221008563533642300, 367180803488897648522700, 367191146564516038892700, 367231221008563533642300, 367240902112657150621500,
  367321046777444152234800, 367331076626743007834500, 367351126270431639223600, 367410854719898079501000, 367420798980423573100600,
  367431241368459057766100, 367440900819535683396600, 367450995326896079795800, 367461280314935733938600, 367471320861446544755000,
  367521423823388262870700, 367530748037169322118800, 367570993958885689387700, 367581112028397635046800, 367601208647167936924700,
  367611071777308013973400, 367631232131127044664600, 367641040525408454101500, 367660948982952855471000, 367711474905950639470000,
  367740939090213949064500, 367771229232373357339500, 367791164297917567184200, 367810948982952855471000, 367821164297917567184200,
  367831229232373357339500, 367840892502790358692000, 367850974959751289656800, 367860864277928485813600, 367930793965235043033800,
  367971191584616233848200, 367980821915416848775300, 368071015057830855740300, 368081446137743394291800, 368160743472862502037000,
  368170968646447336773200, 368201262879597019460800, 368271127296081655942600, 368281182232010432765900, 368300999834701511594800,
  368411390176164600749500, 368451474905950639470000, 368480943749691309664100, 368551012082404747561200, 368570721911613579311100,
  368651405591232583475400, 368701105188124946606700, 368730965940767198021900, 368741446137743394291800, 368791390176164600749500,
  368840801526086787488800, 368900685362349945173400, 368950708627830980675100, 368960822451872658590600, 368990999834701511594800,
  369130921567001766717900, 369141127296081655942600, 369301446137743394291800, 369350770241222854594300, 369380759496511849516300,
  369390743472862502037000, 369421015057830855740300, 369470575306813805123100, 369480821915416848775300, 369511113814159375047400,
  369561446137743394291800, 369601182232010432765900, 369731173679793088949600, 369840965940767198021900, 369861113814159375047400,
  369881191584616233848200, 369931446137743394291800, 369991390176164600749500, 370020793965235043033800, 370091087785849548680900,
  370271137033498058460200, 370300805532287094977100, 370341112028397635046800, 370381344977652226443800, 370481051013371536149000,
  370511027551776288504500, 370571285193952150881800, 370660993958885689387700, 370700842410335080364100, 370891063273603745382300,
  370960557680182869432200, 371011106854830195128000, 371091344977652226443800, 371170793049980621703300, 371290780948261508960600,
  371681027551776288504500, 371941515452461450286300, 371951365044721772658900, 371971280314935733938600, 372001103548743969039000,
  372020762592406671618600, 372101064917476379698300, 372141474905950639470000, 372211290323281589636800, 372261098785939070113600,
  372280899120981046822200, 372301062192512134960700, 372311004857914060228200, 372321185868774849853400, 372331033424304889782700]

def emitE25_9 : List Nat := [
  372380991808265167291300, 372400738704895513496500, 372471248037596507633400, 372550864724690211785200, 372591083703650096655300,
  372601189642807648138100, 372641320861446544755000, 372740993687515102228100, 372751007623067193279300, 372761098785939070113600,
  372910844888551964286100, 372921033424304889782700, 373121248037596507633400, 373191020576472412469500, 373211147822394259578600,
  373221022005068137217200, 373231022005068137217200, 373240721322904359633100, 373250731756237838002500, 373260837858791014157400,
  373270481975801896559100, 373290445751301351758300, 373361042713679579052200, 373401584767179506280900, 373410817398366579508000,
  373471515452461450286300, 373531307508307282302700, 373561244647441340065300, 373651390176164600749500, 373761446137743394291800,
  373850980266648102679700, 373961083039195824788300, 373971089891190468464000, 374111032221885593102500, 374141244647441340065300,
  374280996434940657452900, 374311423823388262870700, 374321290323281589636800, 374331365044721772658900, 374381262879597019460800,
  374391275662934170449200, 374401064917476379698300, 374531584767179506280900, 374631208647167936924700, 374671307508307282302700,
  374701266961796471486300, 374761111147334666831200, 374921016069643872298800, 374991139332449880930100, 375040841993295452991600,
  375071124250160907471700, 375090879322213692986800, 375261313962159396059800, 375281101138988811133000, 375320944409759712799300,
  375421423823388262870700, 375441126270431639223600, 375471584767179506280900, 375481141685499621949500, 375551238193589226308200,
  375590917311040324838300, 375611208647167936924700, 375641515452461450286300, 375691002758886471044700, 375731059539836701617900,
  375751275662934170449200, 375860852516136106541500, 376041584767179506280900, 376100871757328493723100, 376151376823025338297200,
  376161423823388262870700, 376241232131127044664600, 376280773484431631143500, 376360776991423132588800, 376481092769086923468300,
  376561054935442851477100, 376641034234025913044500, 376660796913759892244700, 376701041394979150857000, 376721320861446544755000,
  376751313962159396059800, 376781275662934170449200, 376790990487241993610800, 376831248037596507633400, 376971157100567604675200,
  377070924780129584997100, 377091446137743394291800, 377231354508670206876400, 377381262879597019460800, 377401178722878451638900,
  377490749370366474953700, 377501390176164600749500, 377541515452461450286300, 377621137033498058460200, 377821026794196907658700,
  377841307508307282302700, 377941336276514527480900, 378041301445845100659100, 378060769922612881957200, 378111204100930529248900,
  378131193564878963466200, 378271244647441340065300, 378320837573971681768500, 378411365044721772658900, 378551180462052722825700,
  378570776033886858945700, 378581118423270095074000, 378771266961796471486300, 379041226415285660669800, 379120918071500263360100,
  379131208647167936924700, 379271133681228854595900, 379341301445845100659100, 379381123255127822155000, 379410720296528334761100,
  379441423823388262870700, 379461185868774849853400, 379561204100930529248900, 379691016069643872298800, 380001139332449880930100,
  380091423823388262870700, 380121155721235391441800, 380131208647167936924700, 380151344977652226443800, 380240817398366579508000,
  380251042713679579052200, 380301244647441340065300, 380341307508307282302700, 380351515452461450286300, 380391390176164600749500,
  380411032221885593102500, 380431244647441340065300, 380461083039195824788300, 380470918071500263360100, 380480980266648102679700,
  380491275662934170449200, 380500773484431631143500, 380531139332449880930100, 380561336276514527480900, 380571111147334666831200,
  380621089891190468464000, 380631446137743394291800, 380650796913759892244700, 380671208647167936924700, 380681423823388262870700,
  380691218411014893316100, 380731290323281589636800, 380741266961796471486300, 380751208647167936924700, 380781064917476379698300,
  380791275662934170449200, 380801262879597019460800, 380810720296528334761100, 380830996434940657452900, 380851307508307282302700,
  380911584767179506280900, 380931365044721772658900, 380941423823388262870700, 380961141685499621949500, 381071185868774849853400,
  381080879322213692986800, 381091002758886471044700, 381111423823388262870700, 381141313962159396059800, 381191266961796471486300,
  381241139332449880930100, 381251101138988811133000, 381271584767179506280900, 381301180462052722825700, 381311124250160907471700,
  381331126270431639223600, 381340841993295452991600, 381361204100930529248900, 381380871757328493723100, 381420837573971681768500,
  381440917311040324838300, 381451026794196907658700, 381461423823388262870700, 381481584767179506280900, 381490924780129584997100,
  381501376823025338297200, 381521208647167936924700, 381531515452461450286300, 381550852516136106541500, 381561059539836701617900,
  381591133681228854595900, 381601238193589226308200, 381671515452461450286300, 381690990487241993610800, 381701320861446544755000,
  381771313962159396059800, 381781275662934170449200, 381791155721235391441800, 381801054935442851477100, 381811092769086923468300,
  381821041394979150857000, 381841157100567604675200, 381891034234025913044500, 381900749370366474953700, 381911232131127044664600,
  381921248037596507633400, 381981390176164600749500, 382011178722878451638900, 382031354508670206876400, 382081446137743394291800,
  382091137033498058460200, 382150769922612881957200, 382171307508307282302700, 382211204100930529248900, 382241301445845100659100,
  382271193564878963466200, 382301118423270095074000, 382360776033886858945700, 382371365044721772658900, 382381244647441340065300,
  382431226415285660669800, 382491423823388262870700, 382511208647167936924700, 382551123255127822155000, 382561301445845100659100,
  382630524321771291460300, 382710524321771291460300, 382720573068706826427600, 382741153018368152649800, 382751285193952150881800,
  382811195585149695218200, 382831008248069227796300, 382901115632391283366500, 382910510906018307118500, 382961004253682614632000,
  383051133681228854595900, 383070805284864288342000, 383090902547440444231900, 383121313962159396059800, 383171151693845477647700,
  383211474905950639470000, 383311515452461450286300, 383341328272243760127200, 383441221008563533642300, 383471515452461450286300,
  383571307508307282302700, 383640714184368479602400, 383760573068706826427600, 383771153018368152649800, 383781285193952150881800,
  383811195585149695218200, 383820797293266989099800, 383851221008563533642300, 383861115632391283366500, 383880510906018307118500,
  383911197647078415491800, 383921004253682614632000, 383941313962159396059800, 383950715116155587291500, 383981151693845477647700,
  384000902547440444231900, 384010805284864288342000, 384021133681228854595900, 384051474905950639470000, 384081328272243760127200,
  384141515452461450286300, 384211515452461450286300, 384251307508307282302700, 384281446137743394291800, 384310572701852289900700,
  384491004555341968574600, 384500822598679633819800, 384510736984332716884800, 384520968015530417446800, 384530919868724503803200,
  384540877949979467476600, 384590971644530557966800, 384631474905950639470000, 384641039663334149710700, 384661290323281589636800,
  384690564530261982129900, 384700735970146232347400, 384711405591232583475400, 384721123255127822155000, 384761244647441340065300,
  384771038808628091865000, 384800736052552499886750, 384851221008563533642300, 384931221008563533642300, 384980597340710120358300,
  384990919868724503803200, 385001336276514527480900, 385050599964409973104700, 385061336276514527480900, 385120968015530417446800,
  385141199752419335275000, 385151123255127822155000, 385170792686211577420800, 385181061122983223285800, 385190914694068551499800,
  385200735970146232347400, 385250736984332716884800, 385331102739022945777200, 385341241368459057766100, 385380572701852289900700,
  385420877949979467476600, 385431215879234094887300, 385480966146317116231400, 385521080424667814356200, 385530862802975493207400,
  385550564530261982129900, 385560852516136106541500, 385671376823025338297200, 385681215879234094887300, 385700599964409973104700,
  385801405591232583475400, 385820848312478080716700, 385840848312478080716700, 385881313962159396059800, 385900832743723858818000,
  385920920910400589628800, 385931072370781565955000, 385960810787733665410700, 385971105188124946606700, 385980788734816591396800,
  386011134786212473254400, 386061405591232583475400, 386071244647441340065300, 386130881240319578171200, 386191244647441340065300,
  386201376823025338297200, 386220858785218469962300, 386260759262289231051300, 386270832743723858818000, 386320794888943809249950,
  386340761390308584571100, 386420811311295070805200, 386431067152206248897900, 386461390176164600749500, 386470846991288683493500,
  386491069438020056503000, 386510727599041836250100, 386540866531968317754700, 386560804342041153469500, 386601105188124946606700,
  386621145322264039037000, 386630835491149414043000, 386651149096296837321600, 386751365044721772658900, 386781301445845100659100,
  386841006692827927048000, 386861014722822167212300, 386950866531968317754700, 387011208647167936924700, 387061037961165392767700,
  387121141685499621949500, 387181094983199511189700, 387221067152206248897900, 387241208647167936924700, 387280835212985117855300,
  387380948636931748981400, 387450893592449481113400, 387471307508307282302700, 387480893592449481113400, 387500962311336578744800,
  387540502069945007228500, 387571344977652226443800, 387601344977652226443800, 387610904084243467063200, 387721089891190468464000,
  387741336276514527480900, 387801037120824313129800, 387950879928538634092500, 387971079781578781327000, 388081055940476436827200,
  388161376823025338297200, 388291087093805264223400, 388311354508670206876400, 388571354508670206876400, 388591168878871170313600,
  388671390176164600749500, 388861168878871170313600, 388891390176164600749500, 388990656482473229987700, 389010973620445556013000,
  389070973620445556013000, 389110843914122816818200, 389130972080261094862400, 389140791674642257942000, 389170787038980830765800,
  389181515452461450286300, 389200970348616093716200, 389221137033498058460200, 389241446137743394291800, 389360721768577617144900,
  389401001578931777929000, 389501262879597019460800, 389570560172993422792000, 389600970563438947545300, 389680912263815289596600,
  389710927538925236880000, 389880534049688850955300, 389890618963731076075100, 389901162816408988670200, 389911057467223649906200]

def emitE25_10 : List Nat := [
  390000863096230835335000, 390060604212788685680700, 390151141685499621949500, 390191178722878451638900, 390201307508307282302700,
  390231446137743394291800, 390251027551776288504500, 390290972080261094862400, 390300791674642257942000, 390330787038980830765800,
  390341515452461450286300, 390350970348616093716200, 390361137033498058460200, 390381141685499621949500, 390421446137743394291800,
  390451027551776288504500, 390460721768577617144900, 390480912263815289596600, 390500970563438947545300, 390521001578931777929000,
  390551262879597019460800, 390570927538925236880000, 390640534049688850955300, 390661162816408988670200, 390681057467223649906200,
  390690618963731076075100, 390761178722878451638900, 390771307508307282302700, 390800675848262465077600, 391101097247447186165700,
  391180675848262465077600, 391291097247447186165700, 391311173679793088949600, 391341173679793088949600, 391350699643789221677300,
  391391515452461450286300, 391411584767179506280900, 391451162816408988670200, 391461175332723284070700, 391510830917679564934300,
  391541002462589957978900, 391561515452461450286300, 391651162816408988670200, 391660843009139264826500, 391671584767179506280900,
  391711232131127044664600, 391730893095677470920000, 391771016749918604574200, 391780790886954690832800, 391801095732266684105500,
  391840894794868777793600, 391851178722878451638900, 391870985121970644378700, 391920926842058305270700, 391941000123302000508500,
  391981164297917567184200, 392011229232373357339500, 392080721911613579311100, 392141223675388241858500, 392301262879597019460800,
  392351170453706867127500, 392401241368459057766100, 392411235116423359632900, 392431229232373357339500, 392441262879597019460800,
  392681515452461450286300, 392701584767179506280900, 392721162816408988670200, 392741175332723284070700, 392770830917679564934300,
  392781002462589957978900, 392791164297917567184200, 392800843009139264826500, 392811162816408988670200, 392831584767179506280900,
  392841515452461450286300, 392851095732266684105500, 392871016749918604574200, 392901232131127044664600, 392920893095677470920000,
  392931178722878451638900, 392950985121970644378700, 393011229232373357339500, 393020721911613579311100, 393041229232373357339500,
  393091170453706867127500, 393111262879597019460800, 393121241368459057766100, 393131235116423359632900, 393151446137743394291800,
  393161262879597019460800, 393180846991288683493500, 393191215879234094887300, 393210841341441292967200, 393361226415285660669800,
  393400673197182724074700, 393611365044721772658900, 393780999546931528833400, 393811106018005228076200, 393890966146317116231400,
  394051354508670206876400, 394380944079180899349300, 394461474905950639470000, 394691271217757913365900, 394701474905950639470000,
  394721059539836701617900, 394791061122983223285800, 394861295730003716664300, 394931003354126323774200, 395091307508307282302700,
  395110733529016064379300, 395190985371036775624000, 395221037540112139133400, 395251446137743394291800, 395320673197182724074700,
  395371003354126323774200, 395391365044721772658900, 395401037540112139133400, 395450999546931528833400, 395480966146317116231400,
  395501106018005228076200, 395541446137743394291800, 395561307508307282302700, 395591354508670206876400, 395640733529016064379300,
  395690944079180899349300, 395761271217757913365900, 395781061122983223285800, 395791474905950639470000, 395811474905950639470000,
  395851295730003716664300, 395880985371036775624000, 395891446137743394291800, 395920794888943809249950, 396080995602758323703800,
  396120969706902661652800, 396211101138988811133000, 396311101138988811133000, 396350918453909907200500, 396360479800475943409600,
  396400785845038624753200, 396591423823388262870700, 396631226415285660669800, 396751107698717059714400, 396831178722878451638900,
  396991153018368152649800, 397111019869755690160300, 397141153018368152649800, 397170913958771120973900, 397291285193952150881800,
  397400884824932755484800, 397451095732266684105500, 397460867601497229429300, 397471168878871170313600, 397481015731234073874800,
  397491199752419335275000, 397511232131127044664600, 397521307508307282302700, 397531320861446544755000, 397581320861446544755000,
  397640978388658637520000, 397681232131127044664600, 397700763429005802823600, 397911248037596507633400, 397961301445845100659100,
  398111474905950639470000, 398511365044721772658900, 398531474905950639470000, 398541101138988811133000, 398731390176164600749500,
  398811336276514527480900, 398821307508307282302700, 398951474905950639470000, 398991376823025338297200, 399061141685499621949500,
  399111336276514527480900, 399121085045952129869400, 399491164297917567184200, 399761390176164600749500, 399810886759585450104600,
  399851344977652226443800, 399861178722878451638900, 399951201903039857371300, 399981446137743394291800, 400081390176164600749500,
  400091290323281589636800, 400181295730003716664300, 400201137033498058460200, 400231080424667814356200, 400241211000217677944000,
  400391354508670206876400, 400551150386637320912400, 400561515452461450286300, 400581158499191802149200, 400600763429005802823600,
  400651248037596507633400, 400661301445845100659100, 400701474905950639470000, 400721515452461450286300, 400811474905950639470000,
  400911365044721772658900, 400921101138988811133000, 400941474905950639470000, 400951211000217677944000, 400961390176164600749500,
  400971158499191802149200, 400981344977652226443800, 401001336276514527480900, 401041307508307282302700, 401151336276514527480900,
  401171141685499621949500, 401191376823025338297200, 401201085045952129869400, 401321150386637320912400, 401331164297917567184200,
  401401178722878451638900, 401410886759585450104600, 401421390176164600749500, 401481446137743394291800, 401491390176164600749500,
  401501290323281589636800, 401511201903039857371300, 401571137033498058460200, 401581080424667814356200, 401591295730003716664300,
  401621354508670206876400, 401650858434217758597200, 401691141685499621949500, 401791067152206248897900, 401801162816408988670200,
  401821446137743394291800, 401991229232373357339500, 402011002462589957978900, 402131584767179506280900, 402270895503015389072000,
  402300940036593252159500, 402321038808628091865000, 402401248037596507633400, 402511206348216114454700, 402551098013734460722500,
  402731081071919264917900, 402741515452461450286300, 402850989183442559797800, 402881390176164600749500, 402891108549786026505200,
  403001106854830195128000, 403061111147334666831200, 403291147822394259578600, 403391285193952150881800, 403441285193952150881800,
  403611584767179506280900, 403671221008563533642300, 403721023819999987784800, 403831248037596507633400, 403861248037596507633400,
  404071092041810990560400, 404101584767179506280900, 404211251546728488760400, 404311515452461450286300, 404341258957525704132700,
  404361218411014893316100, 404410983395663902000700, 404421221008563533642300, 404751206348216114454700, 404771258957525704132700,
  404790858434217758597200, 404801141685499621949500, 404810858785218469962300, 404821446137743394291800, 404831162816408988670200,
  404851092041810990560400, 404861002462589957978900, 404881229232373357339500, 404900895503015389072000, 404931038808628091865000,
  404950940036593252159500, 405011584767179506280900, 405021251546728488760400, 405051248037596507633400, 405091098013734460722500,
  405111206348216114454700, 405141258957525704132700, 405151081071919264917900, 405161390176164600749500, 405170989183442559797800,
  405181515452461450286300, 405191218411014893316100, 405211108549786026505200, 405221111147334666831200, 405231285193952150881800,
  405271106854830195128000, 405291147822394259578600, 405331285193952150881800, 405381248037596507633400, 405401584767179506280900,
  405421248037596507633400, 405481023819999987784800, 405521584767179506280900, 405531515452461450286300, 405551258957525704132700,
  405571221008563533642300, 405600983395663902000700, 405631206348216114454700, 405651258957525704132700, 405720896216212502799000,
  405730819750309421780800, 405750907688237115382900, 405781365044721772658900, 405950955056247512887200, 405991218411014893316100,
  406071089184473746154900, 406130790176219644967600, 406140790176219644967600, 406171280314935733938600, 406321280314935733938600,
  406350849203069208855500, 406430917311040324838300, 406440917311040324838300, 406531320861446544755000, 406571134786212473254400,
  406641307508307282302700, 406671290323281589636800, 406700525745762976965700, 406800660622042806157300, 406921149096296837321600,
  406971307508307282302700, 407181025668481455195100, 407230893692100710087300, 407360846058155940605200, 407481204100930529248900,
  407561336276514527480900, 407611336276514527480900, 407631211000217677944000, 407791155721235391441800, 407860857249947561003700,
  408010807660470899740300, 408061147822394259578600, 408121275662934170449200, 408310857249947561003700, 408360807660470899740300,
  408401147822394259578600, 408411275662934170449200, 408450831237509261872000, 408481056446806632482000, 408531146564516038892700,
  408570831237509261872000, 408591146564516038892700, 408601022005068137217200, 408631022005068137217200]

def emitE27_0 : List Nat := [
  199680740321615107317600, 199690673116468000082600, 199710848214276467025400, 199750777160384139844050, 199761009744579655675300,
  199770769156113372490400, 199780979516492468381900, 199790963482227460864000, 199821105885696371137800, 199841252519403250480500,
  199850981714383140259500, 199870956336331062649600, 199881105885696371137800, 199890877177605725329800, 199900662621033819098850,
  199920790677861976669300, 199931032796945516858500, 199940710761324512995100, 199950875627187071733300, 199960525836668498421400,
  199970815997451614730500, 200041252519403250480500, 200050908051153890291100, 200061293065914061296900, 200111073343456327675000,
  200130647153746514037600, 200160766796895170808400, 200181167789617211760000, 200200747320355272663500, 200240924177968649903300,
  200250653040169530414800, 200260625043201126286600, 200270730303802692233200, 200290658502277978437340, 200300811847478524055300,
  200350808647205415437800, 200370808647205415437800, 200391293065914061296900, 200401223751196005302300, 200410577097850889117050,
  200430585696578408740200, 200440893245843894377000, 200451201436840873881500, 200460961647313594044400, 200480696323117133322900,
  200501362380632117291400, 200520713156648615244300, 200541201436840873881500, 200560887021613006655000, 200570902868647103832500,
  200601293065914061296900, 200610849390760624984200, 200631032796945516858500, 200640979516492468381900, 200650909120682801965800,
  200700730664163442563100, 200811293065914061296900, 200831018981911668776900, 200940832050141311383800, 200981293065914061296900,
  201021252519403250480500, 201040862659404740880000, 201050816422080702875500, 201071004028738271680500, 201080738743673096921000,
  201100820770591896849500, 201130581873927691442550, 201141293065914061296900, 201160861986001522745600, 201170859336839978047900,
  201220589583077906735650, 201231252519403250480500, 201260589583077906735650, 201271293065914061296900, 201301098474899155765500,
  201320940429861599680800, 201340761009116513011300, 201350996024467504326900, 201360790677861976669300, 201391073343456327675000,
  201400720707403866058800, 201410639541786959931100, 201420615187424292779200, 201460825316829304525300, 201471362380632117291400,
  201540567718875792844200, 201591122591104837454300, 201600858685371875928500, 201610630394139136394500, 201631362380632117291400,
  201651183204685194486000, 201660721198805346301800, 201671048831210524376400, 201700912399665084264900, 201710918115506468259700,
  201731048831210524376400, 201741122591104837454300, 201770928000089931923000, 201790702121842898357800, 201800856121128814594800,
  201810894167509404869400, 201831036570978315143200, 201841040493049630471300, 201850702529729255839900, 201890807084673625129800,
  201901201436840873881500, 201911362380632117291400, 201950723692700181027000, 201960779192384388939800, 201971201436840873881500,
  202020678647350648732300, 202041293065914061296900, 202080922935716650047600, 202100768100694604621400, 202141183204685194486000,
  202150967256260259148700, 202190785861521838807000, 202231154436477949307800, 202250925435846870589400, 202331167789617211760000,
  202340773216210934714350, 202370928000089931923000, 202381122591104837454300, 202390864707257875234000, 202400888760787277842000,
  202410828147206920810300, 202470857395031392337800, 202480963482227460864000, 202491067936734200647400, 202500630063560322944500,
  202540993492686705897800, 202550601940997237657600, 202560794705251890463200, 202601067936734200647400, 202620654884312320687100,
  202661098474899155765500, 202671362380632117291400, 202710645831284611206900, 202721293065914061296900, 202761113889967138491400,
  202800944941905127727800, 202841001288840852869000, 202911113889967138491400, 202951362380632117291400, 203010967256260259148700,
  203031001288840852869000, 203040806697825947337700, 203070742940093006824200, 203080937531107912355600, 203090811847478524055300,
  203110928000089931923000, 203130929307298088658300, 203141036570978315143200, 203150773216210934714350, 203160969198068844858800,
  203191293065914061296900, 203200983961668725465300, 203251001288840852869000, 203290860652648435799000, 203321223751196005302300,
  203361091575612007070400, 203390821216026931787500, 203421001288840852869000, 203510813900938768226000, 203550956336331062649600,
  203580648097892001129400, 203601362380632117291400, 203631362380632117291400, 203691142658174383669600, 203720853620998594053000,
  203751040493049630471300, 203791154436477949307800, 203810618131359837847400, 203840715300681739031300, 203901183204685194486000,
  203921142658174383669600, 203961032796945516858500, 203990677156375212103600, 204051062807404761892400, 204150808254277601448800,
  204171132122122817886900, 204191293065914061296900, 204211105885696371137800, 204260667490909885960300, 204311105885696371137800,
  204320991023425446860700, 204331113889967138491400, 204391079059297711669900, 204450594316889361197900, 204461067936734200647400,
  204480715300681739031300, 204490622318574380177900, 204511132122122817886900, 204541252519403250480500, 204581223751196005302300,
  204610793344686684885400, 204620736613873329027600, 204631183204685194486000, 204651113889967138491400, 204671252519403250480500,
  204721293065914061296900, 204741201436840873881500, 204890702121842898357800, 204931105885696371137800, 204971293065914061296900,
  205050903883884250234200, 205060993492686705897800, 205080961647313594044400, 205131098474899155765500, 205210868933238804222300,
  205221105885696371137800, 205230654884312320687100, 205241167789617211760000, 205400981714383140259500, 205421223751196005302300,
  205511079059297711669900, 205521252519403250480500, 205530601940997237657600, 205561362380632117291400, 205581223751196005302300,
  205701167789617211760000, 205720954626887726719500, 205810705432490075861900, 205971183204685194486000, 205981098474899155765500,
  206051098474899155765500, 206130833050149644842200, 206161293065914061296900, 206211132122122817886900, 206250642114512464967700,
  206320993492686705897800, 206330762486975922623200, 206481091575612007070400, 206521362380632117291400, 206580993492686705897800,
  206590794705251890463200, 206631067936734200647400, 206671223751196005302300, 206701223751196005302300, 206771183204685194486000,
  206811001288840852869000, 206891142658174383669600, 206930721198805346301800, 206941201436840873881500, 207110625609774879854400,
  207290967256260259148700, 207360678647350648732300, 207381032796945516858500, 207401122591104837454300, 207421362380632117291400,
  207450793344686684885400, 207471091575612007070400, 207540754846029008423100, 207561252519403250480500, 207691362380632117291400,
  207780963482227460864000, 207861091575612007070400, 207911223751196005302300, 207990510361762077687900, 208001022260893951076000,
  208010851181853281637200, 208030666345859207160700, 208040757171715224849800, 208050793007418237021500, 208060893245843894377000,
  208080720870936200131900, 208090568251075026638300, 208110520864585532182900, 208121098474899155765500, 208131113889967138491400,
  208171098474899155765500, 208180510361762077687900, 208201006845825968350100, 208211362380632117291400, 208221362380632117291400,
  208231362380632117291400, 208260848800788412265200, 208281073343456327675000, 208370762984489386634600, 208390843642051533216000,
  208400716546803782812400, 208411252519403250480500, 208431015807041837318700, 208440557789757890213500, 208450919298952232960000,
  208460967256260259148700, 208480573622228951263500, 208491057928388344949200, 208510802909494157107600, 208520689517770808821300,
  208530593810325993836700, 208540745210572376199900, 208551098474899155765500, 208560810234540331066800, 208570699841395316495900,
  208590937531107912355600, 208600979516492468381900, 208610865399302159691400, 208640981714383140259500, 208690843642051533216000,
  208721252519403250480500, 208730864019969946457800, 208741053276386781459800, 208761053276386781459800, 208770928000089931923000,
  208811040493049630471300, 208821362380632117291400, 208851018981911668776900, 208891079059297711669900, 208910483979724998628100,
  208920815997451614730500, 208960861986001522745600, 208981223751196005302300, 209011036570978315143200, 209061223751196005302300,
  209080814734276924140300, 209110887021613006655000, 209120724368378427314900, 209140689997388035170600, 209150996024467504326900,
  209171044575249082496900, 209180952946175895081500, 209190804407649518669200, 209231252519403250480500, 209251062807404761892400,
  209280933334688002452300, 209340864707257875234000, 209351183204685194486000, 209370775168853169749900, 209400891427611986058100,
  209411252519403250480500, 209451154436477949307800, 209570936112644413160000, 209601132122122817886900, 209610801800425487691700,
  209640721857786314207300, 209731048831210524376400, 209750597697492974243300, 209761113889967138491400, 209770597697492974243300,
  209791015807041837318700, 209841293065914061296900, 209851113889967138491400, 209861057928388344949200, 209871009744579655675300,
  209881252519403250480500, 209891001288840852869000, 209911154436477949307800, 209920925435846870589400, 209931252519403250480500,
  209951053276386781459800, 209980837153289312628400, 209990928000089931923000, 210001362380632117291400, 210021040493049630471300,
  210101053276386781459800, 210150856121128814594800, 210160790022121922053300, 210170853005612036615300, 210180616735176599670500,
  210190906992942957237400, 210210725390533834468800, 210241252519403250480500, 210281252519403250480500, 210290956336331062649600,
  210330587018277461316800, 210341252519403250480500, 210350956336331062649600, 210371362380632117291400, 210401362380632117291400,
  210460802538436217454000, 210491132122122817886900, 210501067936734200647400, 210511029160181099771000, 210560938969981657565500,
  210581091575612007070400, 210601362380632117291400, 210630853005612036615300, 210661132122122817886900, 210690794022655383423300,
  210701132122122817886900, 210730694798309953806650, 210781362380632117291400, 210830616735176599670500, 210851154436477949307800,
  210891252519403250480500, 210931154436477949307800, 210971362380632117291400, 210981201436840873881500, 211080938969981657565500,
  211090906992942957237400, 211231053276386781459800, 211290790022121922053300, 211330694798309953806650, 211371091575612007070400,
  211470641668746496515800, 211490946492323781324400, 211500979516492468381900, 211510720544138523670300, 211520732118734542801000]

def emitE27_1 : List Nat := [
  211530965351440762079300, 211541183204685194486000, 211600887887419280966500, 211610943415157914648900, 211620860652648435799000,
  211630993492686705897800, 211641362380632117291400, 211651032796945516858500, 211691053276386781459800, 211700998622016144652800,
  211710902868647103832500, 211821132122122817886900, 211830921708707390866200, 211850998622016144652800, 211870864707257875234000,
  211910663354982067903350, 211930969198068844858800, 211950703350527297622800, 212001154436477949307800, 212020607156903361211300,
  212050887887419280966500, 212061022260893951076000, 212071022260893951076000, 212090965351440762079300, 212130644221437656105000,
  212140902868647103832500, 212180921708707390866200, 212200812254811062818800, 212320986260620547935200, 212331183204685194486000,
  212350703350527297622800, 212371053276386781459800, 212400946492323781324400, 212420929307298088658300, 212431167789617211760000,
  212461029160181099771000, 212471098474899155765500, 212481167789617211760000, 212531057928388344949200, 212541293065914061296900,
  212700743759769727242050, 212710767838571256634000, 212771252519403250480500, 212800993492686705897800, 212811004028738271680500,
  212901293065914061296900, 212950848800788412265200, 213051036570978315143200, 213060776017514557481700, 213070858038120425366700,
  213111091575612007070400, 213120776017514557481700, 213131067936734200647400, 213151012729875970643400, 213190637459126405852600,
  213200913516995144077400, 213211085121759893313300, 213221053276386781459800, 213260543012965521767400, 213270922935716650047600,
  213291098474899155765500, 213300896036722706084800, 213310780967578934784800, 213320922935716650047600, 213330949667193612782300,
  213350656504816865425100, 213380656332995517311350, 213400856121128814594800, 213421132122122817886900, 213440937531107912355600,
  213450721527753011341700, 213460810635342470820700, 213471252519403250480500, 213500952946175895081500, 213511029160181099771000,
  213550660182989810075500, 213581293065914061296900, 213600845902034724940100, 213610933334688002452300, 213670973198602306228700,
  213750662529667892231360, 213781015807041837318700, 213801015807041837318700, 213810938969981657565500, 213820837678224901242900,
  213850991023425446860700, 213881362380632117291400, 213891362380632117291400, 214011362380632117291400, 214020776017514557481700,
  214070717650045863170100, 214100961647313594044400, 214131053276386781459800, 214141079059297711669900, 214211362380632117291400,
  214260991023425446860700, 214351015807041837318700, 214390743349091531976750, 214411362380632117291400, 214420886163238637515800,
  214430886163238637515800, 214480956336331062649600, 214490884468282806138500, 214500896984597101539200, 214510770222790152909900,
  214520896984597101539200, 214570739529531758173150, 214600627586249802422700, 214620890530744987782000, 214631122591104837454300,
  214640998622016144652800, 214650996024467504326900, 214711029160181099771000, 214721067936734200647400, 214740875627187071733300,
  214750765509876118754900, 214760709877666332945300, 214781142658174383669600, 214811362380632117291400, 214820975260531026502300,
  214830967256260259148700, 214840851786084727233500, 214861154436477949307800, 214870754846029008423100, 214880815997451614730500,
  214900731388804294639800, 214910903883884250234200, 214940695557807275551100, 214950946492323781324400, 214960714683395828323100,
  214970866096169091300700, 215051067936734200647400, 215071132122122817886900, 215080902868647103832500, 215101293065914061296900,
  215120768627011609048900, 215130692061820793205200, 215160759072009937411350, 215170877961923471432300, 215180586376564029253400,
  215190872596652122200400, 215201085121759893313300, 215211009744579655675300, 215221201436840873881500, 215230918115506468259700,
  215250858038120425366700, 215261362380632117291400, 215310654630826760368300, 215331362380632117291400, 215350920496571337631600,
  215391183204685194486000, 215421067936734200647400, 215431201436840873881500, 215470933334688002452300, 215480806312469015738700,
  215491362380632117291400, 215501293065914061296900, 215510765509876118754900, 215531362380632117291400, 215550796781451035306200,
  215560796781451035306200, 215571085121759893313300, 215581201436840873881500, 215611048831210524376400, 215631362380632117291400,
  215641098474899155765500, 215660812254811062818800, 215681085121759893313300, 215700858038120425366700, 215740988613670288954600,
  215760952946175895081500, 215780910201774412387400, 215841201436840873881500, 215920983961668725465300, 215961154436477949307800,
  216021293065914061296900, 216041362380632117291400, 216080676629225862752400, 216190943415157914648900, 216211048831210524376400,
  216231223751196005302300, 216280983961668725465300, 216290791337930379804500, 216440761499313573031960, 216461201436840873881500,
  216581252519403250480500, 216611362380632117291400, 216671252519403250480500, 216741293065914061296900, 216761012729875970643400,
  216791362380632117291400, 216880897941542203154200, 216931201436840873881500, 216960959845463043776400, 216970878752441422143700,
  217001113889967138491400, 217040815153564750144000, 217050965351440762079300, 217091018981911668776900, 217191154436477949307800,
  217211079059297711669900, 217221362380632117291400, 217271252519403250480500, 217290983961668725465300, 217330632468485846211500,
  217361057928388344949200, 217371040493049630471300, 217381362380632117291400, 217411079059297711669900, 217460847051472667513600,
  217670866096169091300700, 217760747320355272663500, 217960727117692485334800, 218021362380632117291400, 218070849390760624984200,
  218091067936734200647400, 218151293065914061296900, 218300775733826423961800, 218331252519403250480500, 218341098474899155765500,
  218390847051472667513600, 218461362380632117291400, 218550765509876118754900, 218571362380632117291400, 218621154436477949307800,
  218800973198602306228700, 218841252519403250480500, 218880887887419280966500, 218901105885696371137800, 218911362380632117291400,
  218920777160384139844050, 218950887887419280966500, 218961201436840873881500, 218980944941905127727800, 219031067936734200647400,
  219140727117692485334800, 219160728344701744516200, 219170940429861599680800, 219271167789617211760000, 219320713156648615244300,
  219340949667193612782300, 219381252519403250480500, 219431142658174383669600, 219470977365871946285700, 219501067936734200647400,
  219781154436477949307800, 219870798545165183916900, 219961362380632117291400, 220220866096169091300700, 220250689997388035170600,
  220301012729875970643400, 220311113889967138491400, 220391154436477949307800, 220471223751196005302300, 220521362380632117291400,
  220551362380632117291400, 220571154436477949307800, 220630973198602306228700, 220680839805964745971400, 220751029160181099771000,
  221051223751196005302300, 221091362380632117291400, 221200788401340899368000, 221301079059297711669900, 221321142658174383669600,
  221341040493049630471300, 221510918115506468259700, 221581293065914061296900, 221791105885696371137800, 221951067936734200647400,
  221960908051153890291100, 221981362380632117291400, 222101105885696371137800, 222180967256260259148700, 222350819008431761867500,
  222380861317102707665900, 222400849984234176965500, 222420920496571337631600, 222530711206099152818700, 222600956336331062649600,
  222660843084947028270400, 222690599188980810166250, 222700695939730082250650, 222751018981911668776900, 222780799259453935154900,
  222801048831210524376400, 222830599188980810166250, 222850956336331062649600, 222900711206099152818700, 222910799259453935154900,
  222940695939730082250650, 222960920496571337631600, 223001293065914061296900, 223030830568632732869900, 223070723524491562728500,
  223120937531107912355600, 223170922935716650047600, 223191057928388344949200, 223200825316829304525300, 223301293065914061296900,
  223311029160181099771000, 223361009744579655675300, 223430823017877482055300, 223460956336331062649600, 223500898907733294327800,
  223511362380632117291400, 223521012729875970643400, 223531201436840873881500, 223620725219447394105800, 223630943415157914648900,
  223650831060034213112800, 223690726250384359991900, 223721293065914061296900, 223740726077821763244900, 223780911294681465606400,
  224020946492323781324400, 224041223751196005302300, 224110877961923471432300, 224121293065914061296900, 224180977365871946285700,
  224271122591104837454300, 224321098474899155765500, 224341293065914061296900, 224350920496571337631600, 224381154436477949307800,
  224451223751196005302300, 224661201436840873881500, 224670846475102195838500, 224780606633341955816800, 224791293065914061296900,
  224821293065914061296900, 224841122591104837454300, 224851223751196005302300, 224901293065914061296900, 224950763987004048572400,
  224971223751196005302300, 225190912399665084264900, 225210742127080398499200, 225220621648861070349800, 225300644984800141612100,
  225330725219447394105800, 225340936112644413160000, 225391293065914061296900, 225491293065914061296900, 225571293065914061296900,
  225610714991562482064000, 225640928000089931923000, 225700864707257875234000, 225750819008431761867500, 225760963482227460864000,
  225770943415157914648900, 225801293065914061296900, 225961362380632117291400, 226051252519403250480500, 226091004028738271680500,
  226120701445707800553400, 226151098474899155765500, 226160969198068844858800, 226181223751196005302300, 226220798545165183916900,
  226351122591104837454300, 226361018981911668776900, 226450898907733294327800, 226560853620998594053000, 226590849984234176965500,
  226611252519403250480500, 226651098474899155765500, 226741362380632117291400, 226810961647313594044400, 226860825316829304525300,
  226960886163238637515800, 226970954626887726719500, 227021293065914061296900, 227181154436477949307800, 227210812663809587971300,
  227270943415157914648900, 227371057928388344949200, 227440977365871946285700, 227501362380632117291400, 227511223751196005302300,
  227610831060034213112800, 227630659118206014490850, 227660847051472667513600, 227670847051472667513600, 227680707989447560812200,
  227710971178331574476800, 227740946492323781324400, 227771142658174383669600, 227780946492323781324400, 227810721363143920674800,
  227881091575612007070400, 227910762486975922623200, 227970741521629507628600, 227990724199030376681650, 228040943415157914648900,
  228051009744579655675300, 228060825316829304525300, 228100887887419280966500, 228120928000089931923000, 228151293065914061296900]

def emitE27_2 : List Nat := [
  228161293065914061296900, 228180862659404740880000, 228201154436477949307800, 228211067936734200647400, 228230733223718161459500,
  228250683483457818074500, 228260676209498069218500, 228270536408936015139200, 228291122591104837454300, 228300944941905127727800,
  228310872596652122200400, 228360788723402369372300, 228390803655766277266500, 228401098474899155765500, 228411105885696371137800,
  228420975260531026502300, 228461105885696371137800, 228501098474899155765500, 228550598850243491349900, 228560886163238637515800,
  228570802909494157107600, 228591053276386781459800, 228620775450940803914000, 228630839805964745971400, 228641098474899155765500,
  228650871115143543686300, 228680890530744987782000, 228701062807404761892400, 228711073343456327675000, 228720833050149644842200,
  228741091575612007070400, 228801223751196005302300, 228821006845825968350100, 228850774607053939327500, 228870774607053939327500,
  228900975260531026502300, 228941053276386781459800, 228990844202277088082900, 229000840345049609459000, 229020929307298088658300,
  229090883631457839087000, 229140776017514557481700, 229150730844831965058000, 229181167789617211760000, 229190889641850246057300,
  229200686687393192536100, 229250824390896763245500, 229351362380632117291400, 229370912399665084264900, 229411167789617211760000,
  229421067936734200647400, 229481091575612007070400, 229491142658174383669600, 229551223751196005302300, 229581062807404761892400,
  229621223751196005302300, 229690790022121922053300, 229710904909534266953100, 229820666726087802134500, 229861293065914061296900,
  229871025651049118644100, 229891085121759893313300, 229920606685574916001500, 229930801800425487691700, 229941293065914061296900,
  229951018981911668776900, 229960752124772655934600, 229991085121759893313300, 230020791007351566354500, 230040954626887726719500,
  230051154436477949307800, 230130833050149644842200, 230160828147206920810300, 230200885312169670725000, 230391036570978315143200,
  230410655478289459465600, 230430736040805858129050, 230441105885696371137800, 230450899883350788864400, 230470911294681465606400,
  230521362380632117291400, 230591252519403250480500, 230640643087209995711500, 230671132122122817886900, 230680635628089334474300,
  230711362380632117291400, 230751079059297711669900, 230771201436840873881500, 230891132122122817886900, 230901252519403250480500,
  231051105885696371137800, 231100727117692485334800, 231131105885696371137800, 231250718925980238546200, 231420889641850246057300,
  231430940429861599680800, 231461252519403250480500, 231490899883350788864400, 231560921708707390866200, 231590796781451035306200,
  231671201436840873881500, 231861362380632117291400, 231941001288840852869000, 231950936112644413160000, 232071252519403250480500,
  232101132122122817886900, 232151223751196005302300, 232191293065914061296900, 232281132122122817886900, 232290686687393192536100,
  232340742736219337839400, 232441154436477949307800, 232501362380632117291400, 232520806312469015738700, 232730971178331574476800,
  232811183204685194486000, 233051154436477949307800, 233080911294681465606400, 233211183204685194486000, 233291362380632117291400,
  233320940429861599680800, 233380806312469015738700, 233440921708707390866200, 233481223751196005302300, 233510940429861599680800,
  233760441596907941485000, 233800836111613226802900, 233811223751196005302300, 233830981714383140259500, 233840805165228899515000,
  233850657715904332415850, 233860808254277601448800, 233871223751196005302300, 233890737769955569135200, 233910840345049609459000,
  233950848800788412265200, 233960979516492468381900, 233971362380632117291400, 233980750570912313156700, 234011085121759893313300,
  234030657715904332415850, 234160750570912313156700, 234250557246538787993600, 234290896984597101539200, 234310646373711357678800,
  234320806697825947337700, 234330560748842266949900, 234350733594776101113060, 234361132122122817886900, 234390787441333526466100,
  234431040493049630471300, 234470536098938350198600, 234480691939196620880700, 234490958075505333836500, 234500758355160989550000,
  234510699974109337302100, 234520871853154273448500, 234530593443521364322400, 234540733594776101113060, 234560971178331574476800,
  234571223751196005302300, 234580674239501753038000, 234590780372339082055260, 234600873345719295116000, 234611293065914061296900,
  234621098474899155765500, 234660811037757500793300, 234670661801730191941200, 234700661801730191941200, 234720861986001522745600,
  234751057928388344949200, 234760993492686705897800, 234770977365871946285700, 234780734341048221272000, 234800572316970815491000,
  234810714683395828323100, 234850797835942352967700, 234860775168853169749900, 234870916945902491940700, 234901012729875970643400,
  234921105885696371137800, 234930954626887726719500, 234940705152377847890700, 234951032796945516858500, 235000719247523923943600,
  235060871115143543686300, 235071201436840873881500, 235171113889967138491400, 235181201436840873881500, 235190816422080702875500,
  235221113889967138491400, 235260733594776101113060, 235270557246538787993600, 235280700373311464255800, 235291223751196005302300,
  235311079059297711669900, 235320797835942352967700, 235410971178331574476800, 235420593443521364322400, 235451293065914061296900,
  235460680488225589739300, 235470909120682801965800, 235480896036722706084800, 235510721363143920674800, 235530813900938768226000,
  235560959845463043776400, 235580938969981657565500, 235590938969981657565500, 235600956336331062649600, 235610708133436066611000,
  235620886163238637515800, 235630909120682801965800, 235651293065914061296900, 235660896036722706084800, 235670866096169091300700,
  235690952946175895081500, 235720443775864176577600, 235741015807041837318700, 235760898907733294327800, 235780796781451035306200,
  235811154436477949307800, 235880979516492468381900, 235910819008431761867500, 236011085121759893313300, 236080941911370178195000,
  236090850581250875616000, 236100811441798454493800, 236120517703559405322300, 236130936112644413160000, 236141006845825968350100,
  236150977365871946285700, 236160887021613006655000, 236171062807404761892400, 236180971178331574476800, 236210810635342470820700,
  236241167789617211760000, 236271062807404761892400, 236290941911370178195000, 236310862659404740880000, 236370793683096483309500,
  236460888760787277842000, 236481006845825968350100, 236520971178331574476800, 236530828626824147159600, 236600888760787277842000,
  236630849984234176965500, 236650491038866779373100, 236730916945902491940700, 236790919298952232960000, 236811073343456327675000,
  236821132122122817886900, 236960949667193612782300, 236970943415157914648900, 237001293065914061296900, 237030812663809587971300,
  237041048831210524376400, 237060854240195618845100, 237070712401928051706100, 237131252519403250480500, 237141252519403250480500,
  237210600703051247454200, 237231085121759893313300, 237250686920222168495300, 237310688921466119996700, 237331362380632117291400,
  237350981714383140259500, 237360780372339082055260, 237411362380632117291400, 237451032796945516858500, 237481223751196005302300,
  237551362380632117291400, 237621293065914061296900, 237690993492686705897800, 237770859336839978047900, 237800847631184435946100,
  237810996024467504326900, 237821183204685194486000, 237860871115143543686300, 237891098474899155765500, 237920583311028999817700,
  237961048831210524376400, 237980712401928051706100, 238030901863613518482400, 238050859336839978047900, 238111362380632117291400,
  238150827194818769684800, 238211362380632117291400, 238221154436477949307800, 238281362380632117291400, 238300880352475556787800,
  238310812663809587971300, 238330928000089931923000, 238420996024467504326900, 238531362380632117291400, 238601154436477949307800,
  238791362380632117291400, 238831223751196005302300, 238841113889967138491400, 238880854240195618845100, 238960983961668725465300,
  239011362380632117291400, 239130824390896763245500, 239161067936734200647400, 239371362380632117291400, 239381201436840873881500,
  239401362380632117291400, 239680847631184435946100, 239751223751196005302300, 239911025651049118644100, 239920983961668725465300,
  239940686920222168495300, 239960919298952232960000, 240051183204685194486000, 240130793007418237021500, 240181183204685194486000,
  240201183204685194486000, 240290663447105519835500, 240300595571261209050900, 240330940429861599680800, 240340893245843894377000,
  240370751901308875792900, 240381057928388344949200, 240390847051472667513600, 240400963482227460864000, 240410977365871946285700,
  240431113889967138491400, 240460954626887726719500, 240471362380632117291400, 240481362380632117291400, 240490893245843894377000,
  240501091575612007070400, 240511113889967138491400, 240520748392176894666000, 240550988613670288954600, 240611073343456327675000,
  240620874860899797176300, 240651113889967138491400, 240660951293245699960400, 240670652377915454365450, 240690690721154765193650,
  240700644831660754869200, 240720633419579972174700, 240760725905556432100300, 240850851181853281637200, 240860944941905127727800,
  240881113889967138491400, 240910913516995144077400, 240921113889967138491400, 240930543262031653012600, 241010690721154765193650,
  241020929307298088658300, 241031091575612007070400, 241070633419579972174700, 241090993492686705897800, 241100929307298088658300,
  241180929307298088658300, 241191252519403250480500, 241200796432410541329400, 241231223751196005302300, 241281091575612007070400,
  241301223751196005302300, 241491044575249082496900, 241521223751196005302300, 241591113889967138491400, 241611201436840873881500,
  241621252519403250480500, 241631113889967138491400, 241710929307298088658300, 241780837678224901242900, 241790521799171774006600,
  241800738743673096921000, 241821293065914061296900, 241840895097748671101000, 241850837678224901242900, 241861223751196005302300,
  241871105885696371137800, 241881015807041837318700, 241891044575249082496900, 241901132122122817886900, 241910767316376858518800,
  241960635349343509389000, 241980623981686319440600, 241991201436840873881500, 242070949667193612782300, 242080920496571337631600,
  242110798901671800366500, 242120888760787277842000, 242130876399391681124300, 242170788401340899368000, 242180762735423255389400,
  242200634242065760263200, 242221048831210524376400, 242241105885696371137800, 242291040493049630471300, 242300821663454971279500,
  242310912399665084264900, 242350798901671800366500, 242370727292060445817500, 242450793007418237021500, 242470646218431823372700]

def emitE27_3 : List Nat := [
  242541252519403250480500, 242580961647313594044400, 242641079059297711669900, 242650850581250875616000, 242660973198602306228700,
  242731154436477949307800, 242781293065914061296900, 242870788401340899368000, 242881015807041837318700, 242910767316376858518800,
  242971223751196005302300, 242981223751196005302300, 243000920496571337631600, 243070938969981657565500, 243100641891381096824200,
  243110715921801748295400, 243140717175736673568800, 243200823473459135641400, 243211022260893951076000, 243220801433452598795500,
  243230988613670288954600, 243281142658174383669600, 243311085121759893313300, 243350784306280538058500, 243390890530744987782000,
  243410720870936200131900, 243430845902034724940100, 243440793007418237021500, 243471079059297711669900, 243510721527753011341700,
  243520757171715224849800, 243571006845825968350100, 243580866096169091300700, 243610929307298088658300, 243671154436477949307800,
  243691025651049118644100, 243730757171715224849800, 243750637601373940506800, 243770941911370178195000, 243780637601373940506800,
  243800765765958204922300, 243920941911370178195000, 243961006845825968350100, 243981154436477949307800, 244020895097748671101000,
  244031001288840852869000, 244050840345049609459000, 244081362380632117291400, 244130925435846870589400, 244180983961668725465300,
  244210761009116513011300, 244220761009116513011300, 244250818138861065112000, 244260698917296331122900, 244290961647313594044400,
  244320993492686705897800, 244330807862887669335300, 244410993492686705897800, 244430896036722706084800, 244441142658174383669600,
  244480956336331062649600, 244490674857423389633750, 244520937531107912355600, 244531113889967138491400, 244590766538162814313300,
  244601091575612007070400, 244640847631184435946100, 244650937531107912355600, 244660806697825947337700, 244710766022697755446800,
  244781122591104837454300, 244810871853154273448500, 244901004028738271680500, 244940754158741079646900, 245010674857423389633750,
  245030495853801169131400, 245050896036722706084800, 245090872596652122200400, 245150739135830462239200, 245170896984597101539200,
  245180778899558411030900, 245241036570978315143200, 245250956336331062649600, 245301048831210524376400, 245350676734433657832800,
  245361293065914061296900, 245370840345049609459000, 245411293065914061296900, 245440572613817044600900, 245510936112644413160000,
  245551053276386781459800, 245571362380632117291400, 245611036570978315143200, 245650882801577557617300, 245711085121759893313300,
  245730965351440762079300, 245760714529667896434500, 245771048831210524376400, 245781293065914061296900, 245940848800788412265200,
  245961122591104837454300, 245981362380632117291400, 246031293065914061296900, 246041067936734200647400, 246050610086540310054400,
  246081252519403250480500, 246090883631457839087000, 246150745419558868145900, 246180998622016144652800, 246350738353047600214500,
  246391362380632117291400, 246420969198068844858800, 246431098474899155765500, 246460764239210991843400, 246510993492686705897800,
  246531201436840873881500, 246560965351440762079300, 246580764239210991843400, 246611001288840852869000, 246661293065914061296900,
  246741009744579655675300, 246771252519403250480500, 246810626880440006765800, 246850805165228899515000, 246870687504677368123600,
  246881036570978315143200, 246941032796945516858500, 246980882801577557617300, 247011167789617211760000, 247031252519403250480500,
  247081252519403250480500, 247090814316739783092400, 247131079059297711669900, 247161098474899155765500, 247241293065914061296900,
  247301362380632117291400, 247330981714383140259500, 247351105885696371137800, 247361132122122817886900, 247420814316739783092400,
  247441362380632117291400, 247471293065914061296900, 247481025651049118644100, 247511183204685194486000, 247541362380632117291400,
  247730896984597101539200, 247780906992942957237400, 247851167789617211760000, 247891062807404761892400, 247960967256260259148700,
  247990944941905127727800, 248000805928591385022100, 248011032796945516858500, 248061252519403250480500, 248081362380632117291400,
  248131252519403250480500, 248181167789617211760000, 248190884468282806138500, 248251183204685194486000, 248331201436840873881500,
  248400925435846870589400, 248470788080313336343250, 248580721692633510360000, 248590745002021727097750, 248630967256260259148700,
  248711183204685194486000, 248721293065914061296900, 248751201436840873881500, 248870882801577557617300, 248951067936734200647400,
  249040828626824147159600, 249061362380632117291400, 249071048831210524376400, 249100936112644413160000, 249171036570978315143200,
  249201362380632117291400, 249221252519403250480500, 249301091575612007070400, 249350635210261428554600, 249361362380632117291400,
  249391293065914061296900, 249421036570978315143200, 249440857395031392337800, 249500623981686319440600, 249511252519403250480500,
  249620936112644413160000, 249761067936734200647400, 249771048831210524376400, 250001252519403250480500, 250011293065914061296900,
  250031183204685194486000, 250100811037757500793300, 250140778899558411030900, 250151362380632117291400, 250261201436840873881500,
  250330888760787277842000, 250351001288840852869000, 250361362380632117291400, 250371252519403250480500, 250441252519403250480500,
  250771223751196005302300, 250790714529667896434500, 250801025651049118644100, 250870784925477562850650, 250880993492686705897800,
  250960813074487783236700, 250981091575612007070400, 251011142658174383669600, 251020874100439858654400, 251031362380632117291400,
  251040534741161630960800, 251051132122122817886900, 251061252519403250480500, 251100928000089931923000, 251120838205930611327200,
  251141001288840852869000, 251190930631820763660400, 251211167789617211760000, 251290963482227460864000, 251320963482227460864000,
  251360838205930611327200, 251381362380632117291400, 251401015807041837318700, 251421029160181099771000, 251431029160181099771000,
  251510861317102707665900, 251520993492686705897800, 251531040493049630471300, 251601167789617211760000, 251631004028738271680500,
  251650610032500859941700, 251660918115506468259700, 251701223751196005302300, 251711044575249082496900, 251760734341048221272000,
  251871067936734200647400, 251910912399665084264900, 251930686687393192536100, 251960781266532819621400, 252001154436477949307800,
  252060913516995144077400, 252150744172141445628300, 252161142658174383669600, 252201142658174383669600, 252261362380632117291400,
  252331223751196005302300, 252341223751196005302300, 252381167789617211760000, 252390975260531026502300, 252400973198602306228700,
  252420799618520748227700, 252471098474899155765500, 252491167789617211760000, 252500988613670288954600, 252520871853154273448500,
  252530943415157914648900, 252591223751196005302300, 252650986260620547935200, 252731032796945516858500, 252761085121759893313300,
  252791154436477949307800, 252821252519403250480500, 252851201436840873881500, 252861201436840873881500, 252890620083507012349400,
  252931062807404761892400, 252941201436840873881500, 252961067936734200647400, 252990925435846870589400, 253000915789820251833000,
  253021098474899155765500, 253051085121759893313300, 253070940429861599680800, 253080901863613518482400, 253141167789617211760000,
  253170971178331574476800, 253181362380632117291400, 253191362380632117291400, 253200986260620547935200, 253211067936734200647400,
  253240906992942957237400, 253270981714383140259500, 253291122591104837454300, 253310967256260259148700, 253320961647313594044400,
  253401293065914061296900, 253411252519403250480500, 253421167789617211760000, 253430952946175895081500, 253450719731786371522400,
  253461113889967138491400, 253511004028738271680500, 253531067936734200647400, 253661201436840873881500, 253701025651049118644100,
  253791293065914061296900, 253810931974122796874500, 253841122591104837454300, 253910798189925023480100, 254020804407649518669200,
  254201293065914061296900, 254391004028738271680500, 254421044575249082496900, 254471018981911668776900, 254630803281934066205800,
  254761167789617211760000, 254800943415157914648900, 254840933334688002452300, 254871201436840873881500, 254901132122122817886900,
  254971293065914061296900, 254991113889967138491400, 255050941911370178195000, 255061012729875970643400, 255090969198068844858800,
  255120963482227460864000, 255141062807404761892400, 255420993492686705897800, 255451073343456327675000, 255511122591104837454300,
  255520818572701224972000, 255580952946175895081500, 255620781266532819621400, 255631044575249082496900, 255711183204685194486000,
  255771113889967138491400, 255820931974122796874500, 255881018981911668776900, 255971113889967138491400, 256001293065914061296900,
  256011293065914061296900, 256051167789617211760000, 256131004028738271680500, 256151091575612007070400, 256220881162196580049800,
  256321362380632117291400, 256331362380632117291400, 256441252519403250480500, 256451105885696371137800, 256540988613670288954600,
  256581201436840873881500, 256611362380632117291400, 256710881162196580049800, 256741122591104837454300, 256881223751196005302300,
  257031362380632117291400, 257050862659404740880000, 257091293065914061296900, 257111025651049118644100, 257181098474899155765500,
  257201073343456327675000, 257211167789617211760000, 257301183204685194486000, 257441183204685194486000, 257451183204685194486000,
  257460973198602306228700, 257581132122122817886900, 257641079059297711669900, 257650986260620547935200, 257710799618520748227700,
  257731057928388344949200, 257761085121759893313300, 257881362380632117291400, 257921362380632117291400, 257930971178331574476800,
  257991067936734200647400, 258021009744579655675300, 258050593443521364322400, 258060811037757500793300, 258100991023425446860700,
  258121201436840873881500, 258261142658174383669600, 258401362380632117291400, 258411293065914061296900, 258440686687393192536100,
  258541154436477949307800, 258560969198068844858800, 258711167789617211760000, 258741223751196005302300, 258761362380632117291400,
  258811293065914061296900, 258841201436840873881500, 258901223751196005302300, 258921122591104837454300, 258981167789617211760000,
  259001113889967138491400, 259030915789820251833000, 259100895097748671101000, 259130941911370178195000, 259150876399391681124300,
  259180788401340899368000, 259190620442573825422300, 259280998622016144652800, 259321001288840852869000, 259350581223783182773500,
  259411040493049630471300, 259421022260893951076000, 259430938969981657565500, 259440996024467504326900, 259450822112893930063600]

def emitE27_4 : List Nat := [
  259471142658174383669600, 259501105885696371137800, 259540973198602306228700, 259550900868580433165500, 259580853005612036615300,
  259640764492055627179300, 259680879549258387061400, 259721079059297711669900, 259731001288840852869000, 259751025651049118644100,
  259760879549258387061400, 259861142658174383669600, 259910555822689389082200, 259950662804016486806450, 259960688921466119996700,
  260000849984234176965500, 260031085121759893313300, 260051085121759893313300, 260070855490211895268300, 260090981714383140259500,
  260111091575612007070400, 260151201436840873881500, 260230971178331574476800, 260271362380632117291400, 260291085121759893313300,
  260310450700769360509600, 260320710465903323251900, 260391085121759893313300, 260410675687303671103300, 260441167789617211760000,
  260450806697825947337700, 260490949667193612782300, 260511167789617211760000, 260531015807041837318700, 260541293065914061296900,
  260590883631457839087000, 260630724029968628890900, 260710696579527530216600, 260800944941905127727800, 260821091575612007070400,
  260850870382539534479000, 260860834060259243492700, 260870979516492468381900, 260880864707257875234000, 260890938969981657565500,
  260921201436840873881500, 260930778899558411030900, 260951362380632117291400, 260971183204685194486000, 261020816422080702875500,
  261030930631820763660400, 261060786175493839273800, 261120981714383140259500, 261140792671283466751000, 261180814734276924140300,
  261220887887419280966500, 261240590245770855496500, 261260494960938094701200, 261271362380632117291400, 261310795048305400142200,
  261321053276386781459800, 261330885312169670725000, 261430601344870286007700, 261441012729875970643400, 261490602942507862109800,
  261511167789617211760000, 261521167789617211760000, 261570725390533834468800, 261610944941905127727800, 261641293065914061296900,
  261651252519403250480500, 261660986260620547935200, 261721004028738271680500, 261740758355160989550000, 261771073343456327675000,
  261780816422080702875500, 261790859992580032663800, 261850758832488864815800, 261870758832488864815800, 261881293065914061296900,
  261910899883350788864400, 261941252519403250480500, 261950785548532537914200, 261960931974122796874500, 261971201436840873881500,
  261980806312469015738700, 261990904909534266953100, 262020988613670288954600, 262051004028738271680500, 262070850581250875616000,
  262121154436477949307800, 262160783998113884317700, 262220649771904787379000, 262230765765958204922300, 262241223751196005302300,
  262280759072009937411350, 262300741320624414826100, 262340673218042412066100, 262381293065914061296900, 262421362380632117291400,
  262441105885696371137800, 262471154436477949307800, 262481201436840873881500, 262490806312469015738700, 262571154436477949307800,
  262620981714383140259500, 262631252519403250480500, 262740996024467504326900, 262801293065914061296900, 262831362380632117291400,
  262861113889967138491400, 262891252519403250480500, 262921048831210524376400, 262971036570978315143200, 263021167789617211760000,
  263080931974122796874500, 263130785548532537914200, 263320908051153890291100, 263331293065914061296900, 263360930631820763660400,
  263420851786084727233500, 263481252519403250480500, 263521018981911668776900, 263540831060034213112800, 263561167789617211760000,
  263600730664163442563100, 263610925435846870589400, 263640602641000096012000, 263660661620570722106100, 263681167789617211760000,
  263710630063560322944500, 263760805165228899515000, 263770845902034724940100, 263790965351440762079300, 263810888760787277842000,
  263880946492323781324400, 263890993492686705897800, 263910633146914499903700, 263950720055935763939500, 263970677368015502741400,
  263990884468282806138500, 264061293065914061296900, 264071252519403250480500, 264080677686318158753500, 264100881162196580049800,
  264110832548895462487900, 264120740919822275072300, 264131142658174383669600, 264150796432410541329400, 264170793683096483309500,
  264200874860899797176300, 264210896036722706084800, 264260793683096483309500, 264350688210562652086000, 264381105885696371137800,
  264410793344686684885400, 264460716546803782812400, 264470809437723366149200, 264480829108752790754600, 264490669919392512435400,
  264511252519403250480500, 264541079059297711669900, 264600839805964745971400, 264621293065914061296900, 264631057928388344949200,
  264641105885696371137800, 264651122591104837454300, 264690648097892001129400, 264720697871535166727100, 264741362380632117291400,
  264770888760787277842000, 264791062807404761892400, 264800642114512464967700, 264810525836668498421400, 264820809041683244539400,
  264831293065914061296900, 264851252519403250480500, 264921223751196005302300, 264940685646319590752300, 264950872596652122200400,
  264970895097748671101000, 265000906992942957237400, 265051132122122817886900, 265071113889967138491400, 265121029160181099771000,
  265171053276386781459800, 265190515328553795510750, 265221062807404761892400, 265240815153564750144000, 265250832548895462487900,
  265331223751196005302300, 265380937531107912355600, 265390912399665084264900, 265431067936734200647400, 265441252519403250480500,
  265501122591104837454300, 265641012729875970643400, 265750776873439897048700, 265760621709559099527450, 265781362380632117291400,
  265791032796945516858500, 265800940429861599680800, 265841183204685194486000, 265851362380632117291400, 265880938969981657565500,
  265970900868580433165500, 266041183204685194486000, 266070901863613518482400, 266090672610137804427900, 266110853620998594053000,
  266121183204685194486000, 266131001288840852869000, 266211293065914061296900, 266231252519403250480500, 266291001288840852869000,
  266310782168794579585100, 266321044575249082496900, 266331223751196005302300, 266341293065914061296900, 266350874860899797176300,
  266361362380632117291400, 266380916945902491940700, 266391009744579655675300, 266410725905556432100300, 266431091575612007070400,
  266460916945902491940700, 266470891427611986058100, 266570845332232613476400, 266661154436477949307800, 266790821663454971279500,
  266800931974122796874500, 266810713612230268830400, 266840654377982125032400, 266851183204685194486000, 266861293065914061296900,
  266881001288840852869000, 266900607630463835794700, 266910901863613518482400, 266931293065914061296900, 266941293065914061296900,
  266961167789617211760000, 267040832548895462487900, 267050789046504427516900, 267070791337930379804500, 267081122591104837454300,
  267220901863613518482400, 267231132122122817886900, 267250714222919189648300, 267260977365871946285700, 267270889641850246057300,
  267281293065914061296900, 267291167789617211760000, 267511105885696371137800, 267530719408684313377700, 267570540474966011231700,
  267581252519403250480500, 267711293065914061296900, 267811122591104837454300, 267860993492686705897800, 267900862659404740880000,
  267920891427611986058100, 267970890530744987782000, 267990981714383140259500, 268031201436840873881500, 268161048831210524376400,
  268181223751196005302300, 268200988613670288954600, 268251009744579655675300, 268270866096169091300700, 268341036570978315143200,
  268370988613670288954600, 268401142658174383669600, 268421018981911668776900, 268470874860899797176300, 268481091575612007070400,
  268551044575249082496900, 268620600801524913708200, 268650949667193612782300, 268660916945902491940700, 268691142658174383669600,
  268731293065914061296900, 268810899883350788864400, 268851122591104837454300, 268911362380632117291400, 268930852393989334871600,
  268981029160181099771000, 269161223751196005302300, 269281362380632117291400, 269371044575249082496900, 269411252519403250480500,
  269430993492686705897800, 269540697871535166727100, 269630912399665084264900, 269700778316466379951600, 269760837153289312628400,
  269791183204685194486000, 269821362380632117291400, 269840901863613518482400, 269871223751196005302300, 269890710761324512995100,
  269970895097748671101000, 269990934714020215686000, 270011122591104837454300, 270040796781451035306200, 270101183204685194486000,
  270121201436840873881500, 270140956336331062649600, 270151201436840873881500, 270171293065914061296900, 270291067936734200647400,
  270360961647313594044400, 270481252519403250480500, 270531132122122817886900, 270540652213034955347100, 270601252519403250480500,
  270631293065914061296900, 270731362380632117291400, 270821105885696371137800, 270830906992942957237400, 270850937531107912355600,
  270861293065914061296900, 270880909120682801965800, 270911105885696371137800, 271041293065914061296900, 271120899883350788864400,
  271231293065914061296900, 271331009744579655675300, 271351142658174383669600, 271371167789617211760000, 271380696323117133322900,
  271461113889967138491400, 271550796781451035306200, 271610782168794579585100, 271690785236519804289800, 271710821663454971279500,
  271761252519403250480500, 271780838736435834296600, 271831223751196005302300, 271851062807404761892400, 271920874860899797176300,
  271930725905556432100300, 271940977365871946285700, 271971293065914061296900, 271981009744579655675300, 272110714222919189648300,
  272251079059297711669900, 272310793683096483309500, 272430838736435834296600, 272571154436477949307800, 272601252519403250480500,
  272640817276786760721500, 272651362380632117291400, 272731293065914061296900, 272781293065914061296900, 272801183204685194486000,
  272841132122122817886900, 272920889641850246057300, 272981048831210524376400, 272991223751196005302300, 273051362380632117291400,
  273081252519403250480500, 273310938969981657565500, 273471154436477949307800, 273551223751196005302300, 273581252519403250480500,
  273590916945902491940700, 273671293065914061296900, 273681362380632117291400, 273701223751196005302300, 273721201436840873881500,
  273791293065914061296900, 273841293065914061296900, 273861223751196005302300, 273871062807404761892400, 273961009744579655675300,
  274020688210562652086000, 274071223751196005302300, 274101293065914061296900, 274141201436840873881500, 274241132122122817886900,
  274251252519403250480500, 274260833050149644842200, 274270764745541187498100, 274281252519403250480500, 274310887021613006655000,
  274420886163238637515800, 274471252519403250480500, 274530735471003746665300, 274541183204685194486000, 274620910201774412387400,
  274630979516492468381900, 274680796781451035306200, 274720887021613006655000, 274811223751196005302300, 274871252519403250480500,
  274890833050149644842200, 274901001288840852869000, 274910533426683654877300, 274921105885696371137800, 274931004028738271680500]

def emitE27_5 : List Nat := [
  274940574678842555051700, 274950993492686705897800, 274981132122122817886900, 275061073343456327675000, 275110837678224901242900,
  275120895097748671101000, 275150839805964745971400, 275241252519403250480500, 275271362380632117291400, 275300930631820763660400,
  275561362380632117291400, 275711362380632117291400, 275731085121759893313300, 275750906992942957237400, 275800971178331574476800,
  275830684844023023652300, 275841091575612007070400, 275851091575612007070400, 275861362380632117291400, 275890702121842898357800,
  275951362380632117291400, 275970619191440436511400, 275991293065914061296900, 276030952946175895081500, 276040938969981657565500,
  276051057928388344949200, 276110781266532819621400, 276271122591104837454300, 276630524956013907661050, 276650567048797461248400,
  276671167789617211760000, 276680965351440762079300, 276791223751196005302300, 276821062807404761892400, 276830965351440762079300,
  276871154436477949307800, 276911062807404761892400, 276981362380632117291400, 276991362380632117291400, 277000622440823784156100,
  277040720055935763939500, 277051252519403250480500, 277130937531107912355600, 277140896036722706084800, 277190848800788412265200,
  277210626116105075509000, 277331132122122817886900, 277350700506733765569500, 277391009744579655675300, 277400977365871946285700,
  277410880352475556787800, 277421293065914061296900, 277430526093049014103450, 277440817276786760721500, 277451362380632117291400,
  277480857395031392337800, 277541044575249082496900, 277621132122122817886900, 277641091575612007070400, 277661022260893951076000,
  277700996024467504326900, 277770905945812970507800, 277781167789617211760000, 277790866797926357165400, 277811009744579655675300,
  277841040493049630471300, 277850954626887726719500, 277921113889967138491400, 277941252519403250480500, 277961154436477949307800,
  278010731570787966338400, 278030948067159478138200, 278070905945812970507800, 278091252519403250480500, 278111006845825968350100,
  278131132122122817886900, 278180887887419280966500, 278211223751196005302300, 278270567013654252311650, 278330973198602306228700,
  278350734904429993097500, 278361073343456327675000, 278371142658174383669600, 278381044575249082496900, 278391015807041837318700,
  278411044575249082496900, 278490677474003853945700, 278500931974122796874500, 278561362380632117291400, 278590988613670288954600,
  278610670610071133760900, 278630975260531026502300, 278670973198602306228700, 278721183204685194486000, 278731001288840852869000,
  278740633146914499903700, 278751362380632117291400, 278770949667193612782300, 278800876399391681124300, 278821183204685194486000,
  278861113889967138491400, 278871293065914061296900, 278880669624841489459750, 278891362380632117291400, 278911062807404761892400,
  278931252519403250480500, 279001105885696371137800, 279010705713389136967350, 279050744793905106715300, 279150814316739783092400,
  279161362380632117291400, 279181201436840873881500, 279221067936734200647400, 279270996024467504326900, 279291091575612007070400,
  279310707845666083849500, 279340709731146160212500, 279410756002111248530600, 279431252519403250480500, 279460640489661355385500,
  279540736422485710799200, 279551293065914061296900, 279570967256260259148700, 279611223751196005302300, 279631001288840852869000,
  279641022260893951076000, 279651142658174383669600, 279660748607926708668000, 279690811847478524055300, 279731006845825968350100,
  279741223751196005302300, 279751167789617211760000, 279761142658174383669600, 279781113889967138491400, 279790901863613518482400,
  279811362380632117291400, 279820754387312607732400, 279850914646950669470900, 279861040493049630471300, 279871098474899155765500,
  279881252519403250480500, 279930993492686705897800, 279940916945902491940700, 279981091575612007070400, 280001167789617211760000,
  280031362380632117291400, 280060871853154273448500, 280090773492836284003400, 280100896036722706084800, 280140981714383140259500,
  280151362380632117291400, 280200916945902491940700, 280230576942511052054900, 280341098474899155765500, 280370868216389856361000,
  280401098474899155765500, 280411091575612007070400, 280440975260531026502300, 280511293065914061296900, 280521183204685194486000,
  280531362380632117291400, 280590646296041450861600, 280621223751196005302300, 280681132122122817886900, 280700764745541187498100,
  280710921708707390866200, 280721022260893951076000, 280751293065914061296900, 280791132122122817886900, 280821025651049118644100,
  280850912399665084264900, 280920775168853169749900, 281030998622016144652800, 281070977365871946285700, 281181098474899155765500,
  281201142658174383669600, 281221183204685194486000, 281260913516995144077400, 281291062807404761892400, 281321252519403250480500,
  281331201436840873881500, 281341062807404761892400, 281360933334688002452300, 281391293065914061296900, 281420829593015238333300,
  281450757643414212663700, 281470746682733558735900, 281490727466732979311600, 281501223751196005302300, 281511029160181099771000,
  281530911294681465606400, 281541006845825968350100, 281550903883884250234200, 281650625168829283512700, 281700727466732979311600,
  281721201436840873881500, 281760877961923471432300, 281800946492323781324400, 281831085121759893313300, 281861142658174383669600,
  281890943415157914648900, 281920797835942352967700, 281930854240195618845100, 281951142658174383669600, 282010715766159693529500,
  282040901863613518482400, 282070803655766277266500, 282101293065914061296900, 282121362380632117291400, 282160843084947028270400,
  282181201436840873881500, 282220914646950669470900, 282271085121759893313300, 282341154436477949307800, 282371122591104837454300,
  282460655478289459465600, 282480813486859501622700, 282511006845825968350100, 282541142658174383669600, 282551223751196005302300,
  282630975260531026502300, 282671167789617211760000, 282710857395031392337800, 282860708277632198301200, 282871053276386781459800,
  282941293065914061296900, 283040679293208652673550, 283100864707257875234000, 283161122591104837454300, 283170905945812970507800,
  283191062807404761892400, 283220993492686705897800, 283250868933238804222300, 283300713917108553766200, 283310715766159693529500,
  283351098474899155765500, 283420834569166194239800, 283570890530744987782000, 283591057928388344949200, 283630991023425446860700,
  283641132122122817886900, 283661122591104837454300, 283671362380632117291400, 283691132122122817886900, 283720905945812970507800,
  283731006845825968350100, 283781167789617211760000, 283850741521629507628600, 283861022260893951076000, 283881252519403250480500,
  283901252519403250480500, 283920921708707390866200, 283930849984234176965500, 283960887887419280966500, 284021085121759893313300,
  284041091575612007070400, 284081040493049630471300, 284141167789617211760000, 284150741521629507628600, 284170946492323781324400,
  284181073343456327675000, 284351252519403250480500, 284360998622016144652800, 284500626116105075509000, 284581091575612007070400,
  284591004028738271680500, 284651223751196005302300, 284661022260893951076000, 284671201436840873881500, 284720877961923471432300,
  284781040493049630471300, 284791223751196005302300, 284811040493049630471300, 284870892332595538049800, 284911293065914061296900,
  284971105885696371137800, 285000744793905106715300, 285040896984597101539200, 285070826251415546348900, 285080826251415546348900,
  285101067936734200647400, 285141223751196005302300, 285160764745541187498100, 285250930631820763660400, 285260687270485223615400,
  285271252519403250480500, 285361362380632117291400, 285401201436840873881500, 285480865399302159691400, 285501167789617211760000,
  285521122591104837454300, 285561362380632117291400, 285570746682733558735900, 285581053276386781459800, 285670921708707390866200,
  285721085121759893313300, 285800705713389136967350, 285831154436477949307800, 285901362380632117291400, 285951004028738271680500,
  285981293065914061296900, 286081098474899155765500, 286091113889967138491400, 286100993492686705897800, 286111098474899155765500,
  286171167789617211760000, 286261057928388344949200, 286291053276386781459800, 286381025651049118644100, 286390754387312607732400,
  286401062807404761892400, 286411252519403250480500, 286440646296041450861600, 286541293065914061296900, 286570921708707390866200,
  286701252519403250480500, 286771022260893951076000, 286891142658174383669600, 286931057928388344949200, 286980895097748671101000,
  286990975260531026502300, 287011132122122817886900, 287030892332595538049800, 287221293065914061296900, 287341085121759893313300,
  287391006845825968350100, 287480956336331062649600, 287510986260620547935200, 287531067936734200647400, 287600849984234176965500,
  287650986260620547935200, 287710708277632198301200, 287721252519403250480500, 287790871853154273448500, 287810890530744987782000,
  287830965351440762079300, 287840988613670288954600, 287890675375290937478900, 287901098474899155765500, 287921167789617211760000,
  287961105885696371137800, 287971223751196005302300, 287981223751196005302300, 287990840345049609459000, 288001362380632117291400,
  288051091575612007070400, 288090998622016144652800, 288140778899558411030900, 288181183204685194486000, 288280901863613518482400,
  288431006845825968350100, 288441183204685194486000, 288460794705251890463200, 288510616908637180891350, 288551113889967138491400,
  288561154436477949307800, 288570886163238637515800, 288580625043201126286600, 288600940429861599680800, 288611048831210524376400,
  288651201436840873881500, 288661167789617211760000, 288671079059297711669900, 288720718285978053999400, 288741293065914061296900,
  288790893245843894377000, 288881293065914061296900, 288891201436840873881500, 288910988613670288954600, 288950904909534266953100,
  289021015807041837318700, 289040921708707390866200, 289051362380632117291400, 289081362380632117291400, 289091025651049118644100,
  289110956336331062649600, 289161079059297711669900, 289191057928388344949200, 289211362380632117291400, 289370973198602306228700,
  289381293065914061296900, 289471167789617211760000, 289490854240195618845100, 289501293065914061296900, 289520873345719295116000,
  289531223751196005302300, 289541142658174383669600, 289610944941905127727800, 289660983961668725465300, 289751113889967138491400,
  289761252519403250480500, 289771053276386781459800, 289820737383107891343100, 290010940429861599680800, 290020877961923471432300,
  290040940429861599680800, 290100901863613518482400, 290170904909534266953100, 290221362380632117291400, 290281009744579655675300]

def emitE27_6 : List Nat := [
  290290854240195618845100, 290300958075505333836500, 290310823931125838382500, 290321154436477949307800, 290331015807041837318700,
  290361362380632117291400, 290381223751196005302300, 290431252519403250480500, 290660921708707390866200, 290711057928388344949200,
  290741201436840873881500, 290761201436840873881500, 290811105885696371137800, 290871015807041837318700, 290881362380632117291400,
  291001085121759893313300, 291051025651049118644100, 291071362380632117291400, 291091293065914061296900, 291130818138861065112000,
  291181048831210524376400, 291210921708707390866200, 291231015807041837318700, 291280965351440762079300, 291341252519403250480500,
  291410695177337571184800, 291481293065914061296900, 291510659383340946652800, 291521293065914061296900, 291570988613670288954600,
  291580840345049609459000, 291650988613670288954600, 291660894167509404869400, 291721362380632117291400, 291801362380632117291400,
  291820873345719295116000, 291901201436840873881500, 291971201436840873881500, 292000998622016144652800, 292111167789617211760000,
  292241252519403250480500, 292261018981911668776900, 292290816422080702875500, 292321167789617211760000, 292330745002021727097750,
  292370720870936200131900, 292380814316739783092400, 292390592396391377592800, 292401362380632117291400, 292410815997451614730500,
  292420592396391377592800, 292431062807404761892400, 292450872596652122200400, 292460443775864176577600, 292471252519403250480500,
  292540961647313594044400, 292551142658174383669600, 292601057928388344949200, 292661044575249082496900, 292730766280098154964100,
  292750822564361965516300, 292791044575249082496900, 292821009744579655675300, 292870823473459135641400, 292890836111613226802900,
  293010948067159478138200, 293050516360685127679700, 293090948067159478138200, 293121018981911668776900, 293130961647313594044400,
  293341022260893951076000, 293431293065914061296900, 293560901863613518482400, 293591105885696371137800, 293641079059297711669900,
  293660851181853281637200, 293691053276386781459800, 293760851181853281637200, 293781154436477949307800, 293800859992580032663800,
  293921015807041837318700, 293990824852791348874900, 294061362380632117291400, 294201025651049118644100, 294221029160181099771000,
  294321252519403250480500, 294360890530744987782000, 294501015807041837318700, 294540993492686705897800, 294631362380632117291400,
  294670821663454971279500, 294681122591104837454300, 294811252519403250480500, 294821036570978315143200, 294830949667193612782300,
  294860867504643079474600, 294921079059297711669900, 294941053276386781459800, 294950891427611986058100, 295030910201774412387400,
  295091029160181099771000, 295181062807404761892400, 295221105885696371137800, 295441025651049118644100, 295521362380632117291400,
  295540971178331574476800, 295570993492686705897800, 295600865399302159691400, 295630867504643079474600, 295720761745316157118200,
  295750872596652122200400, 295770465757780694713800, 295790527054482143904050, 295851113889967138491400, 295901091575612007070400,
  295950669428955040926500, 296021293065914061296900, 296091122591104837454300, 296140873345719295116000, 296150780967578934784800,
  296160948067159478138200, 296180692800740411442300, 296260883631457839087000, 296271113889967138491400, 296401362380632117291400,
  296411122591104837454300, 296450614056190509906500, 296470993492686705897800, 296491183204685194486000, 296571079059297711669900,
  296640738939559545454300, 296711293065914061296900, 296731004028738271680500, 296770843642051533216000, 296821113889967138491400,
  296940948067159478138200, 296990840345049609459000, 297020717808650178733650, 297110699444306773546600, 297121142658174383669600,
  297221201436840873881500, 297230913516995144077400, 297301067936734200647400, 297340797483208301170900, 297360958075505333836500,
  297380756702230794429000, 297400958075505333836500, 297420951293245699960400, 297440993492686705897800, 297470757643414212663700,
  297480746049151713827400, 297560750131351165852860, 297591113889967138491400, 297610922935716650047600, 297710873345719295116000,
  297831105885696371137800, 297861105885696371137800, 297870944941905127727800, 297880751901308875792900, 297900634724991845420500,
  297910853005612036615300, 297951142658174383669600, 297960596369200199898600, 298010914646950669470900, 298020669428955040926500,
  298050941911370178195000, 298081025651049118644100, 298140596369200199898600, 298151362380632117291400, 298220768891212555332700,
  298251132122122817886900, 298271142658174383669600, 298310988613670288954600, 298330699444306773546600, 298350709292869344702900,
  298400949667193612782300, 298520951293245699960400, 298540971178331574476800, 298591113889967138491400, 298621362380632117291400,
  298641293065914061296900, 298651098474899155765500, 298720780967578934784800, 298850883631457839087000, 298980750131351165852860,
  299031183204685194486000, 299060900868580433165500, 299140900868580433165500, 299161067936734200647400, 299201293065914061296900,
  299221252519403250480500, 299260747107362646881100, 299351053276386781459800, 299421029160181099771000, 299430961647313594044400,
  299561183204685194486000, 299641053276386781459800, 299691293065914061296900, 299760925435846870589400, 299780986260620547935200,
  299800728875206967485600, 299830518112118193173900, 299860996024467504326900, 299920797835942352967700, 299931154436477949307800,
  299950713764553222882550, 299961167789617211760000, 299971201436840873881500, 300000630460386240506600, 300011079059297711669900,
  300020729408541565021800, 300030771300967713238700, 300051057928388344949200, 300070831553862377171000, 300110981714383140259500,
  300210996024467504326900, 300241362380632117291400, 300270975260531026502300, 300280832050141311383800, 300310973198602306228700,
  300361036570978315143200, 300410841979963409611900, 300431362380632117291400, 300441362380632117291400, 300501057928388344949200,
  300530790677861976669300, 300541201436840873881500, 300581048831210524376400, 300590981714383140259500, 300601223751196005302300,
  300640801433452598795500, 300661223751196005302300, 300680647546057727284700, 300701001288840852869000, 300791009744579655675300,
  300831183204685194486000, 300860797483208301170900, 300870647546057727284700, 300901067936734200647400, 300950952946175895081500,
  300970959845463043776400, 301420909120682801965800, 301461362380632117291400, 301490874860899797176300, 301651015807041837318700,
  301711201436840873881500, 301961122591104837454300, 302441154436477949307800, 302491252519403250480500, 302711252519403250480500,
  303150943415157914648900, 303171252519403250480500, 303220943415157914648900, 303281201436840873881500, 303310761745316157118200,
  303320739529531758173150, 303330675064248696039650, 303340902868647103832500, 303400951293245699960400, 303420841979963409611900,
  303430692061820793205200, 303470778899558411030900, 303581018981911668776900, 303610983961668725465300, 303721293065914061296900,
  303820869655263601571000, 303851001288840852869000, 303941001288840852869000, 303991223751196005302300, 304051201436840873881500,
  304061048831210524376400, 304080784615399795025800, 304100605181787179547500, 304160949667193612782300, 304170677580104659655200,
  304220770222790152909900, 304240828626824147159600, 304270699841395316495900, 304310924177968649903300, 304330936112644413160000,
  304350677580104659655200, 304360828626824147159600, 304390810635342470820700, 304421029160181099771000, 304460812254811062818800,
  304520803281934066205800, 304560717018132228022300, 304600941911370178195000, 304620887021613006655000, 304650914646950669470900,
  304711293065914061296900, 304730753476144572606900, 304751091575612007070400, 304950682030106356457600, 304961040493049630471300,
  305051362380632117291400, 305111040493049630471300, 305221183204685194486000, 305240981714383140259500, 305260857395031392337800,
  305291293065914061296900, 305441252519403250480500, 305551009744579655675300, 305561293065914061296900, 305581252519403250480500,
  305611040493049630471300, 305621132122122817886900, 305630885312169670725000, 305661062807404761892400, 305961167789617211760000,
  305970975260531026502300, 305991040493049630471300, 306311252519403250480500, 306511006845825968350100, 306551122591104837454300,
  306831048831210524376400, 306841122591104837454300, 306900969198068844858800, 306911105885696371137800, 306930774048393268463550,
  306970896984597101539200, 306991073343456327675000, 307031073343456327675000, 307070555509012845813300, 307101067936734200647400,
  307171223751196005302300, 307191006845825968350100, 307201362380632117291400, 307221154436477949307800, 307400996024467504326900,
  307420944941905127727800, 307460975260531026502300, 307481223751196005302300, 307571223751196005302300, 307581183204685194486000,
  307591362380632117291400, 307681293065914061296900, 307720988613670288954600, 307751142658174383669600, 307781113889967138491400,
  307791252519403250480500, 307841012729875970643400, 307891223751196005302300, 307981293065914061296900, 308050847051472667513600,
  308061252519403250480500, 308201252519403250480500, 308271098474899155765500, 308281142658174383669600, 308301057928388344949200,
  308310975260531026502300, 308441142658174383669600, 308650961647313594044400, 308711183204685194486000, 308741067936734200647400,
  308791362380632117291400, 308831001288840852869000, 308870919298952232960000, 308890847051472667513600, 308931362380632117291400,
  308961201436840873881500, 309061057928388344949200, 309101293065914061296900, 309171252519403250480500, 309220764999670930365300,
  309281012729875970643400, 309321362380632117291400, 309380944941905127727800, 309561057928388344949200, 309591067936734200647400,
  309671057928388344949200, 309770971178331574476800, 309901012729875970643400, 310141006845825968350100, 310181113889967138491400,
  310251252519403250480500, 310340918115506468259700, 310360685072594551737900, 310380819008431761867500, 310401048831210524376400,
  310410951293245699960400, 310481132122122817886900, 310491252519403250480500, 310620666251027526274800, 310631142658174383669600,
  310660845902034724940100, 310681009744579655675300, 310690975260531026502300, 310700732485707431697200, 310720883631457839087000,
  310770551548403099967500, 310801167789617211760000, 310851122591104837454300, 310870798901671800366500, 310980889641850246057300,
  311030702666061928626300, 311050979516492468381900, 311080702666061928626300, 311090866797926357165400, 311180798901671800366500]

def emitE27_7 : List Nat := [
  311190641372669300212600, 311420871853154273448500, 311430849984234176965500, 311460866797926357165400, 311500685072594551737900,
  311551293065914061296900, 311610809041683244539400, 311620988613670288954600, 311630889641850246057300, 311651057928388344949200,
  311660929307298088658300, 311680622869877461042900, 311691062807404761892400, 311741293065914061296900, 311770918115506468259700,
  311790668164961547344500, 311811122591104837454300, 311850615700684615431300, 311861079059297711669900, 311920815574618003778300,
  312031201436840873881500, 312060787123368234728100, 312071362380632117291400, 312090983961668725465300, 312150865399302159691400,
  312161036570978315143200, 312271004028738271680500, 312320973198602306228700, 312401293065914061296900, 312430745419558868145900,
  312521362380632117291400, 312621293065914061296900, 312641001288840852869000, 312670761991925406637500, 312781122591104837454300,
  312811036570978315143200, 312830983961668725465300, 312871053276386781459800, 312890951293245699960400, 312911183204685194486000,
  312931091575612007070400, 313020777160384139844050, 313080761991925406637500, 313090865399302159691400, 313100849984234176965500,
  313131362380632117291400, 313190954626887726719500, 313291362380632117291400, 313370983961668725465300, 313441201436840873881500,
  313501293065914061296900, 313511132122122817886900, 313540729944735879160300, 313611053276386781459800, 313770930631820763660400,
  313811293065914061296900, 313831085121759893313300, 313841293065914061296900, 313971201436840873881500, 313980981714383140259500,
  314021022260893951076000, 314061132122122817886900, 314070930631820763660400, 314181201436840873881500, 314310981714383140259500,
  314350651229420467675800, 314490943415157914648900, 314540991023425446860700, 314551004028738271680500, 314560583600944299174350,
  314591154436477949307800, 314610861317102707665900, 314621252519403250480500, 314691252519403250480500, 314710798189925023480100,
  314780991023425446860700, 314810755076178707251000, 314820934714020215686000, 314871223751196005302300, 314911036570978315143200,
  314961085121759893313300, 314991044575249082496900, 315031252519403250480500, 315050704316718388796600, 315081085121759893313300,
  315130906992942957237400, 315150919298952232960000, 315181293065914061296900, 315201091575612007070400, 315260837678224901242900,
  315281293065914061296900, 315301293065914061296900, 315320706136222747919450, 315341252519403250480500, 315391113889967138491400,
  315461025651049118644100, 315481079059297711669900, 315581085121759893313300, 315591362380632117291400, 315631183204685194486000,
  315641062807404761892400, 315651044575249082496900, 315671362380632117291400, 315681252519403250480500, 315690981714383140259500,
  315701167789617211760000, 315720963482227460864000, 315740624729819484669500, 315811183204685194486000, 315840934714020215686000,
  316011223751196005302300, 316090829108752790754600, 316141113889967138491400, 316160887021613006655000, 316271025651049118644100,
  316311183204685194486000, 316321252519403250480500, 316391079059297711669900, 316490881978527643965800, 316571252519403250480500,
  316591098474899155765500, 316610896984597101539200, 316800818572701224972000, 316811252519403250480500, 316840814316739783092400,
  316871142658174383669600, 316890981714383140259500, 317161036570978315143200, 317221154436477949307800, 317261122591104837454300,
  317351362380632117291400, 317511048831210524376400, 317770887021613006655000, 317831362380632117291400, 317871098474899155765500,
  317991183204685194486000, 318051113889967138491400, 318061113889967138491400, 318091201436840873881500, 318111122591104837454300,
  318200829108752790754600, 318210891427611986058100, 318391201436840873881500, 318401079059297711669900, 318541252519403250480500,
  318581067936734200647400, 318590753703159426060800, 318601223751196005302300, 318670931974122796874500, 318691223751196005302300,
  318810897941542203154200, 318891293065914061296900, 318901015807041837318700, 318951167789617211760000, 319011362380632117291400,
  319030977365871946285700, 319080998622016144652800, 319180986260620547935200, 319211073343456327675000, 319250998622016144652800,
  319291079059297711669900, 319340886163238637515800, 319580851786084727233500, 319611362380632117291400, 319641223751196005302300,
  319681223751196005302300, 319750986260620547935200, 319861362380632117291400, 319881223751196005302300, 319950850581250875616000,
  319981252519403250480500, 320000742940093006824200, 320040881978527643965800, 320050671805304486145100, 320061293065914061296900,
  320071293065914061296900, 320101362380632117291400, 320110831553862377171000, 320130608477926534892000, 320161142658174383669600,
  320191073343456327675000, 320200727292060445817500, 320230963482227460864000, 320260991023425446860700, 320320675271502656236900,
  320331154436477949307800, 320340727816996034431900, 320391085121759893313300, 320430863337373439417800, 320470938969981657565500,
  320481018981911668776900, 320491201436840873881500, 320570736040805858129050, 320661004028738271680500, 320681113889967138491400,
  320800882801577557617300, 320851079059297711669900, 320971132122122817886900, 321021362380632117291400, 321040977365871946285700,
  321101132122122817886900, 321130768891212555332700, 321140815997451614730500, 321151105885696371137800, 321210956336331062649600,
  321311223751196005302300, 321431036570978315143200, 321470808647205415437800, 321560977365871946285700, 321600782774857040754300,
  321621167789617211760000, 321720975260531026502300, 321730625736117284531500, 321761067936734200647400, 321770699708857192389000,
  321780943415157914648900, 321801252519403250480500, 321840910201774412387400, 321871201436840873881500, 321890969198068844858800,
  321910961647313594044400, 321961293065914061296900, 322021085121759893313300, 322100937531107912355600, 322151223751196005302300,
  322161293065914061296900, 322180820770591896849500, 322221079059297711669900, 322251362380632117291400, 322270800340545545576500,
  322301362380632117291400, 322331044575249082496900, 322390959845463043776400, 322440965351440762079300, 322491183204685194486000,
  322641223751196005302300, 322651032796945516858500, 322861154436477949307800, 322910743349091531976750, 323021091575612007070400,
  323051201436840873881500, 323111091575612007070400, 323151293065914061296900, 323170738353047600214500, 323180837153289312628400,
  323210986260620547935200, 323261079059297711669900, 323270944941905127727800, 323381362380632117291400, 323400983961668725465300,
  323460967256260259148700, 323501015807041837318700, 323530988613670288954600, 323610996024467504326900, 323621022260893951076000,
  323651073343456327675000, 323770963482227460864000, 323800877177605725329800, 323861062807404761892400, 323921001288840852869000,
  323960934714020215686000, 324030965351440762079300, 324061098474899155765500, 324081201436840873881500, 324121362380632117291400,
  324161252519403250480500, 324171293065914061296900, 324180671805304486145100, 324201098474899155765500, 324211293065914061296900,
  324220881978527643965800, 324230991023425446860700, 324260742940093006824200, 324280959845463043776400, 324310727292060445817500,
  324330963482227460864000, 324340699708857192389000, 324350608477926534892000, 324371201436840873881500, 324380910201774412387400,
  324410831553862377171000, 324421154436477949307800, 324451142658174383669600, 324461073343456327675000, 324470820770591896849500,
  324501201436840873881500, 324510965351440762079300, 324521113889967138491400, 324541018981911668776900, 324550983961668725465300,
  324561004028738271680500, 324610736040805858129050, 324620963482227460864000, 324630808647205415437800, 324660977365871946285700,
  324670882801577557617300, 324691015807041837318700, 324721022260893951076000, 324731362380632117291400, 324751105885696371137800,
  324761132122122817886900, 324771079059297711669900, 324790768891212555332700, 324811223751196005302300, 324820956336331062649600,
  324830988613670288954600, 324851036570978315143200, 324870877177605725329800, 324890837153289312628400, 324900937531107912355600,
  324930934714020215686000, 324960969198068844858800, 324981293065914061296900, 324990996024467504326900, 325000625736117284531500,
  325010961647313594044400, 325020975260531026502300, 325041167789617211760000, 325080977365871946285700, 325091201436840873881500,
  325101067936734200647400, 325110782774857040754300, 325121252519403250480500, 325151223751196005302300, 325161293065914061296900,
  325181362380632117291400, 325191183204685194486000, 325241362380632117291400, 325261079059297711669900, 325311044575249082496900,
  325331091575612007070400, 325351362380632117291400, 325360800340545545576500, 325371032796945516858500, 325431154436477949307800,
  325451362380632117291400, 325520965351440762079300, 325531091575612007070400, 325541079059297711669900, 325561001288840852869000,
  325570967256260259148700, 325591362380632117291400, 325651201436840873881500, 325681142658174383669600, 325701098474899155765500,
  325731113889967138491400, 325801293065914061296900, 325930943415157914648900, 325961252519403250480500, 325970861986001522745600,
  325990618072794682439900, 326090971178331574476800, 326101012729875970643400, 326171142658174383669600, 326261105885696371137800,
  326311012729875970643400, 326411167789617211760000, 326450618072794682439900, 326481167789617211760000, 326500797131714090426400,
  326520911294681465606400, 326540720218405336639660, 326601293065914061296900, 326701062807404761892400, 326731098474899155765500,
  326760718445595007281600, 326801098474899155765500, 326810577097850889117050, 326900620023787691374700, 326971293065914061296900,
  327010682141155784860400, 327031085121759893313300, 327050836111613226802900, 327091079059297711669900, 327140971178331574476800,
  327180963482227460864000, 327220979516492468381900, 327240756468312559111760, 327280969198068844858800, 327351032796945516858500,
  327360760521310667668000, 327411132122122817886900, 327420991023425446860700, 327450986260620547935200, 327501132122122817886900,
  327520836111613226802900, 327551113889967138491400, 327610969198068844858800, 327631036570978315143200, 327640789046504427516900,
  327680775168853169749900, 327690742329714713022400, 327710896984597101539200, 327730731025827489581900, 327741098474899155765500,
  327800986260620547935200, 327841022260893951076000, 327890788401340899368000, 327911142658174383669600, 327921167789617211760000]

def emitE27_8 : List Nat := [
  327960983961668725465300, 328190741120022542139600, 328220774327333477221400, 328231044575249082496900, 328241091575612007070400,
  328271252519403250480500, 328291012729875970643400, 328310969198068844858800, 328341252519403250480500, 328351223751196005302300,
  328381362380632117291400, 328431362380632117291400, 328441048831210524376400, 328520823473459135641400, 328540723524491562728500,
  328561012729875970643400, 328580924177968649903300, 328620749040827817626600, 328740856121128814594800, 328790823473459135641400,
  328800856121128814594800, 328820707989447560812200, 328831091575612007070400, 328861252519403250480500, 328871048831210524376400,
  328930806312469015738700, 328941362380632117291400, 328990816422080702875500, 329010816422080702875500, 329021293065914061296900,
  329030973198602306228700, 329051091575612007070400, 329180969198068844858800, 329241362380632117291400, 329281183204685194486000,
  329290725905556432100300, 329321201436840873881500, 329331001288840852869000, 329371167789617211760000, 329430824852791348874900,
  329460918115506468259700, 329481293065914061296900, 329631048831210524376400, 329641040493049630471300, 329660913516995144077400,
  329720938969981657565500, 329741057928388344949200, 329821073343456327675000, 329831362380632117291400, 329880644221437656105000,
  329930722854472305746500, 329960813074487783236700, 329970905945812970507800, 329991252519403250480500, 330181154436477949307800,
  330210783998113884317700, 330320861317102707665900, 330330861317102707665900, 330341012729875970643400, 330391223751196005302300,
  330461252519403250480500, 330501073343456327675000, 330670902868647103832500, 330711201436840873881500, 330730902868647103832500,
  330800954626887726719500, 330861079059297711669900, 330980852393989334871600, 331041223751196005302300, 331091362380632117291400,
  331291293065914061296900, 331391073343456327675000, 331441183204685194486000, 331450975260531026502300, 331500831553862377171000,
  331511154436477949307800, 331690969198068844858800, 331781201436840873881500, 331811098474899155765500, 332100975260531026502300,
  332130913516995144077400, 332161293065914061296900, 332181098474899155765500, 332221362380632117291400, 332250954626887726719500,
  332310969198068844858800, 332400852393989334871600, 332471223751196005302300, 332510615586398888706300, 332531029160181099771000,
  332551183204685194486000, 332560747320355272663500, 332580841432016833149500, 332611132122122817886900, 332670802909494157107600,
  332680977365871946285700, 332751057928388344949200, 332761183204685194486000, 332781362380632117291400, 332801183204685194486000,
  332821362380632117291400, 332850981714383140259500, 332871105885696371137800, 332880689517770808821300, 332890811847478524055300,
  332900979516492468381900, 332921167789617211760000, 332930933334688002452300, 332980788401340899368000, 333080896984597101539200,
  333100912399665084264900, 333110889641850246057300, 333220822112893930063600, 333231098474899155765500, 333241223751196005302300,
  333280959845463043776400, 333291293065914061296900, 333331223751196005302300, 333341085121759893313300, 333351362380632117291400,
  333361293065914061296900, 333370936112644413160000, 333511040493049630471300, 333691293065914061296900, 333820959845463043776400,
  333901085121759893313300, 333910627393261643457740, 333921252519403250480500, 333931252519403250480500, 333940794022655383423300,
  333950795737963306048300, 333990795737963306048300, 334020795737963306048300, 334051098474899155765500, 334060831553862377171000,
  334071223751196005302300, 334100818572701224972000, 334181201436840873881500, 334221362380632117291400, 334231362380632117291400,
  334241223751196005302300, 334251293065914061296900, 334260952946175895081500, 334371105885696371137800, 334451142658174383669600,
  334461085121759893313300, 334491132122122817886900, 334501362380632117291400, 334520666061633530267700, 334541048831210524376400,
  334551004028738271680500, 334570753249643909521600, 334590600506394350250200, 334631067936734200647400, 334641183204685194486000,
  334650885312169670725000, 334690877961923471432300, 334700988613670288954600, 334731183204685194486000, 334761223751196005302300,
  334791044575249082496900, 334801362380632117291400, 334841015807041837318700, 334851067936734200647400, 334870789046504427516900,
  334890829108752790754600, 334901362380632117291400, 334910888760787277842000, 334920961647313594044400, 334950897941542203154200,
  335020986260620547935200, 335031105885696371137800, 335041362380632117291400, 335051293065914061296900, 335090746471093268098150,
  335210558982358648969400, 335380716233814481919700, 335390814316739783092400, 335410900868580433165500, 335500929307298088658300,
  335591091575612007070400, 335641022260893951076000, 335751073343456327675000, 335760924177968649903300, 335791167789617211760000,
  335860699841395316495900, 335890988613670288954600, 335900773492836284003400, 335921252519403250480500, 335930938969981657565500,
  336001085121759893313300, 336030975260531026502300, 336061015807041837318700, 336090773216210934714350, 336101015807041837318700,
  336151362380632117291400, 336161001288840852869000, 336171183204685194486000, 336181362380632117291400, 336331029160181099771000,
  336350652213034955347100, 336371122591104837454300, 336381022260893951076000, 336391201436840873881500, 336421053276386781459800,
  336430967256260259148700, 336470988613670288954600, 336550863337373439417800, 336591223751196005302300, 336730699444306773546600,
  336740635349343509389000, 336781113889967138491400, 336831362380632117291400, 336860929307298088658300, 336881132122122817886900,
  336941201436840873881500, 336961362380632117291400, 337061362380632117291400, 337070861317102707665900, 337130706419108367967200,
  337140663170989375702650, 337151362380632117291400, 337181362380632117291400, 337190971178331574476800, 337210914646950669470900,
  337221025651049118644100, 337250841432016833149500, 337281252519403250480500, 337290993492686705897800, 337351362380632117291400,
  337380848214276467025400, 337400986260620547935200, 337431362380632117291400, 337481362380632117291400, 337561048831210524376400,
  337611018981911668776900, 337651362380632117291400, 337750543012965521767400, 337770759552780094221600, 337780754387312607732400,
  337851362380632117291400, 337891201436840873881500, 337931142658174383669600, 337951113889967138491400, 337961183204685194486000,
  337991015807041837318700, 338020706419108367967200, 338040843084947028270400, 338050684274869523673500, 338161183204685194486000,
  338211142658174383669600, 338290659383340946652800, 338301223751196005302300, 338310981714383140259500, 338320705572840976093900,
  338360777160384139844050, 338481223751196005302300, 338531036570978315143200, 338621201436840873881500, 338650695557807275551100,
  338731122591104837454300, 338790823473459135641400, 338821362380632117291400, 338830861317102707665900, 338910977365871946285700,
  338941044575249082496900, 338971252519403250480500, 339051015807041837318700, 339071362380632117291400, 339101223751196005302300,
  339141362380632117291400, 339220731570787966338400, 339310821216026931787500, 339401362380632117291400, 339431293065914061296900,
  339450696067362518211100, 339701029160181099771000, 339761091575612007070400, 339801067936734200647400, 339811252519403250480500,
  339830952946175895081500, 339841053276386781459800, 339851079059297711669900, 339881132122122817886900, 339930798901671800366500,
  339950770222790152909900, 340130861986001522745600, 340151142658174383669600, 340280931974122796874500, 340300663170989375702650,
  340311183204685194486000, 340711293065914061296900, 340740866797926357165400, 340811067936734200647400, 340830821216026931787500,
  340851015807041837318700, 340921201436840873881500, 340930967256260259148700, 341061167789617211760000, 341071362380632117291400,
  341080885312169670725000, 341211085121759893313300, 341220899883350788864400, 341341293065914061296900, 341370887021613006655000,
  341570981714383140259500, 341621362380632117291400, 341641006845825968350100, 341740864707257875234000, 341800961647313594044400,
  341830815153564750144000, 341861142658174383669600, 342031025651049118644100, 342041201436840873881500, 342071362380632117291400,
  342141001288840852869000, 342161362380632117291400, 342170705572840976093900, 342180795048305400142200, 342241032796945516858500,
  342311293065914061296900, 342491223751196005302300, 342530861986001522745600, 342550788723402369372300, 342611001288840852869000,
  342681293065914061296900, 342690795737963306048300, 342760866797926357165400, 342770988613670288954600, 342810755769823106916700,
  342941362380632117291400, 342970885312169670725000, 342981167789617211760000, 342990819008431761867500, 343081362380632117291400,
  343091079059297711669900, 343101085121759893313300, 343110789046504427516900, 343141006845825968350100, 343451293065914061296900,
  343490573622228951263500, 343601293065914061296900, 343671142658174383669600, 343820693919459350498700, 343831025651049118644100,
  343851036570978315143200, 343891091575612007070400, 343940819885630369151200, 343950819885630369151200, 343961025651049118644100,
  343980899883350788864400, 343990946492323781324400, 344021098474899155765500, 344110864019969946457800, 344250805546181741181800,
  344271362380632117291400, 344281252519403250480500, 344300956336331062649600, 344311362380632117291400, 344421183204685194486000,
  344431362380632117291400, 344530971178331574476800, 344671252519403250480500, 345030946492323781324400, 345051293065914061296900,
  345070896984597101539200, 345101362380632117291400, 345270848800788412265200, 345321183204685194486000, 345411167789617211760000,
  345420921708707390866200, 345601004028738271680500, 345620958075505333836500, 345791362380632117291400, 345880940429861599680800,
  345941362380632117291400, 346311032796945516858500, 346331004028738271680500, 346381091575612007070400, 346561293065914061296900,
  346620956336331062649600, 346780948067159478138200, 346851362380632117291400, 346961223751196005302300, 347010857395031392337800,
  347351293065914061296900, 347461015807041837318700, 347580993492686705897800, 347840822564361965516300, 347961004028738271680500,
  348020864019969946457800, 348211032796945516858500, 348221362380632117291400, 348291091575612007070400, 348490963482227460864000,
  348501201436840873881500, 348511362380632117291400, 348700971178331574476800, 348750921708707390866200, 348801062807404761892400]

def emitE27_9 : List Nat := [
  348920705152377847890700, 348930840887056356392800, 348990796432410541329400, 349001025651049118644100, 349030878752441422143700,
  349070660182989810075500, 349090689997388035170600, 349130712101627525729100, 349150925435846870589400, 349171067936734200647400,
  349200818572701224972000, 349230921708707390866200, 349241201436840873881500, 349260786806410758600300, 349281057928388344949200,
  349301223751196005302300, 349421362380632117291400, 349431293065914061296900, 349451009744579655675300, 349481252519403250480500,
  349551073343456327675000, 349661015807041837318700, 349740786806410758600300, 349801167789617211760000, 349890975260531026502300,
  350090961647313594044400, 350131067936734200647400, 350280981714383140259500, 350290758117348749053300, 350321022260893951076000,
  350331048831210524376400, 350361067936734200647400, 350371067936734200647400, 350410668068389835348600, 350441223751196005302300,
  350591105885696371137800, 350601154436477949307800, 350681293065914061296900, 350901025651049118644100, 350980988613670288954600,
  351221223751196005302300, 351251362380632117291400, 351261122591104837454300, 351400820327132190062800, 351581252519403250480500,
  351671252519403250480500, 351741362380632117291400, 351831201436840873881500, 351860975260531026502300, 351990576787412145430100,
  352011293065914061296900, 352031223751196005302300, 352060986260620547935200, 352110712703133098705250, 352150881162196580049800,
  352191154436477949307800, 352220988613670288954600, 352420825316829304525300, 352501201436840873881500, 352551362380632117291400,
  352580876399391681124300, 352610874860899797176300, 352631252519403250480500, 352640735850510843520500, 352650712703133098705250,
  352660735850510843520500, 352680881162196580049800, 352691154436477949307800, 352700988613670288954600, 352720874860899797176300,
  352730876399391681124300, 352761252519403250480500, 352801201436840873881500, 352811362380632117291400, 352820948067159478138200,
  352990880352475556787800, 353021167789617211760000, 353201167789617211760000, 353280727117692485334800, 353351362380632117291400,
  353360931974122796874500, 353380961647313594044400, 353441362380632117291400, 353470855490211895268300, 353520892332595538049800,
  353700998622016144652800, 353730948067159478138200, 353770881978527643965800, 353801252519403250480500, 353821032796945516858500,
  354081132122122817886900, 354101044575249082496900, 354120905945812970507800, 354131009744579655675300, 354220926709749448332300,
  354250956336331062649600, 354260958075505333836500, 354271201436840873881500, 354301122591104837454300, 354330789046504427516900,
  354411062807404761892400, 354421201436840873881500, 354430979516492468381900, 354491167789617211760000, 354631098474899155765500,
  354650901863613518482400, 354661362380632117291400, 354691132122122817886900, 354751053276386781459800, 354821293065914061296900,
  354860703350527297622800, 354880636187922847016400, 354921067936734200647400, 354941067936734200647400, 354961142658174383669600,
  354981142658174383669600, 355041293065914061296900, 355061201436840873881500, 355160692430598101123700, 355190981714383140259500,
  355271132122122817886900, 355311040493049630471300, 355331167789617211760000, 355380876399391681124300, 355420895097748671101000,
  355431293065914061296900, 355531223751196005302300, 355560961647313594044400, 355591040493049630471300, 355630878752441422143700,
  355650901863613518482400, 355661183204685194486000, 355691073343456327675000, 355741073343456327675000, 355751293065914061296900,
  355760834060259243492700, 355801201436840873881500, 355820657890120404354400, 355840838205930611327200, 355851132122122817886900,
  355860938969981657565500, 355881362380632117291400, 355910937531107912355600, 355941252519403250480500, 355981154436477949307800,
  356001022260893951076000, 356041252519403250480500, 356061018981911668776900, 356090689040442933555600, 356111201436840873881500,
  356130825783030615106400, 356161122591104837454300, 356240880352475556787800, 356271293065914061296900, 356281223751196005302300,
  356410951293245699960400, 356570762239144321176450, 356631252519403250480500, 356720973198602306228700, 356740937531107912355600,
  356760868216389856361000, 356861252519403250480500, 356950868216389856361000, 356960888760787277842000, 357030871853154273448500,
  357090901863613518482400, 357121167789617211760000, 357220998622016144652800, 357310866797926357165400, 357401293065914061296900,
  357421154436477949307800, 357450931974122796874500, 357481132122122817886900, 357491252519403250480500, 357501362380632117291400,
  357530866797926357165400, 357570855490211895268300, 357580888760787277842000, 357590961647313594044400, 357600892332595538049800,
  357621201436840873881500, 357631073343456327675000, 357680881978527643965800, 357700895097748671101000, 357731293065914061296900,
  357740948067159478138200, 357750998622016144652800, 357770762239144321176450, 357791032796945516858500, 357801009744579655675300,
  357820973198602306228700, 357841132122122817886900, 357851252519403250480500, 357890926709749448332300, 357910905945812970507800,
  357930868216389856361000, 357941044575249082496900, 357971122591104837454300, 357990789046504427516900, 358020636187922847016400,
  358051062807404761892400, 358100958075505333836500, 358111201436840873881500, 358121167789617211760000, 358131201436840873881500,
  358140979516492468381900, 358170956336331062649600, 358210703350527297622800, 358221293065914061296900, 358231067936734200647400,
  358261142658174383669600, 358281142658174383669600, 358291067936734200647400, 358311040493049630471300, 358320834060259243492700,
  358340657890120404354400, 358351167789617211760000, 358381201436840873881500, 358411293065914061296900, 358421293065914061296900,
  358430981714383140259500, 358450876399391681124300, 358481132122122817886900, 358500692430598101123700, 358510838205930611327200,
  358521073343456327675000, 358541252519403250480500, 358550878752441422143700, 358561040493049630471300, 358571252519403250480500,
  358581132122122817886900, 358590938969981657565500, 358600961647313594044400, 358610901863613518482400, 358621201436840873881500,
  358641183204685194486000, 358681154436477949307800, 358710880352475556787800, 358721293065914061296900, 358731018981911668776900,
  358740825783030615106400, 358751122591104837454300, 358771223751196005302300, 358780689040442933555600, 358791022260893951076000,
  358800951293245699960400, 358821293065914061296900, 358841223751196005302300, 358850937531107912355600, 358890868216389856361000,
  358911154436477949307800, 358950767838571256634000, 359051362380632117291400, 359100898907733294327800, 359121132122122817886900,
  359200766796895170808400, 359370848800788412265200, 359460816848520581521200, 359470878752441422143700, 359481036570978315143200,
  359610902868647103832500, 359701293065914061296900, 359801040493049630471300, 359870949667193612782300, 359970781566383119247100,
  359980775450940803914000, 360001362380632117291400, 360010961647313594044400, 360020797483208301170900, 360071183204685194486000,
  360081062807404761892400, 360091362380632117291400, 360110671006897051323000, 360121098474899155765500, 360151293065914061296900,
  360191183204685194486000, 360200715146002667201400, 360240891427611986058100, 360261362380632117291400, 360270956336331062649600,
  360281113889967138491400, 360291252519403250480500, 360311293065914061296900, 360320876399391681124300, 360331009744579655675300,
  360351293065914061296900, 360391029160181099771000, 360400877961923471432300, 360510775168853169749900, 360581201436840873881500,
  360600868933238804222300, 360620934714020215686000, 360641201436840873881500, 360651018981911668776900, 360660662987334594972600,
  360681293065914061296900, 360700826251415546348900, 360740835594816210958600, 360840993492686705897800, 360901122591104837454300,
  360930797483208301170900, 360941183204685194486000, 361000996024467504326900, 361011293065914061296900, 361041132122122817886900,
  361060757171715224849800, 361110931974122796874500, 361231122591104837454300, 361250781566383119247100, 361260775450940803914000,
  361271362380632117291400, 361290797483208301170900, 361300961647313594044400, 361311098474899155765500, 361320662987334594972600,
  361330938969981657565500, 361351062807404761892400, 361360835594816210958600, 361371362380632117291400, 361391183204685194486000,
  361421293065914061296900, 361430671006897051323000, 361441183204685194486000, 361451293065914061296900, 361461009744579655675300,
  361481113889967138491400, 361490715146002667201400, 361501362380632117291400, 361510891427611986058100, 361521293065914061296900,
  361530956336331062649600, 361540876399391681124300, 361551252519403250480500, 361570996024467504326900, 361580877961923471432300,
  361611293065914061296900, 361641029160181099771000, 361691201436840873881500, 361710826251415546348900, 361750934714020215686000,
  361760868933238804222300, 361791018981911668776900, 361801201436840873881500, 361820993492686705897800, 361841293065914061296900,
  361861122591104837454300, 361870797483208301170900, 361881183204685194486000, 361900757171715224849800, 361921132122122817886900,
  361940931974122796874500, 361951122591104837454300, 361960797835942352967700, 361991293065914061296900, 362030723356565410756500,
  362081048831210524376400, 362121362380632117291400, 362130803281934066205800, 362150835080676260916700, 362251040493049630471300,
  362290628882444230110100, 362340712854076523590700, 362351122591104837454300, 362490803281934066205800, 362591167789617211760000,
  362641122591104837454300, 362731362380632117291400, 362741362380632117291400, 362750918115506468259700, 362910894167509404869400,
  362990758832488864815800, 363101362380632117291400, 363141362380632117291400, 363181362380632117291400, 363191293065914061296900,
  363211044575249082496900, 363311252519403250480500, 363350735660577263155300, 363390979516492468381900, 363411048831210524376400,
  363431252519403250480500, 363571122591104837454300, 363681048831210524376400, 364201154436477949307800, 364231293065914061296900,
  364241223751196005302300, 364481362380632117291400, 364541293065914061296900, 364741252519403250480500, 364930894167509404869400,
  364981362380632117291400, 365230937531107912355600, 365241085121759893313300, 365301142658174383669600, 365381183204685194486000,
  365540973198602306228700, 365551362380632117291400, 365561012729875970643400, 365570483979724998628100, 365620579457378362932200]

def emitE27_10 : List Nat := [
  365751079059297711669900, 365871012729875970643400, 366001079059297711669900, 366031004028738271680500, 366061201436840873881500,
  366131062807404761892400, 366170916945902491940700, 366181362380632117291400, 366280799618520748227700, 366291015807041837318700,
  366370678005637216668950, 366461167789617211760000, 366501073343456327675000, 366550954626887726719500, 366641154436477949307800,
  366671362380632117291400, 366741362380632117291400, 366771293065914061296900, 366810830079634203450600, 366851057928388344949200,
  366921362380632117291400, 367031091575612007070400, 367061362380632117291400, 367100973198602306228700, 367111362380632117291400,
  367121012729875970643400, 367130579457378362932200, 367160830079634203450600, 367181073343456327675000, 367191079059297711669900,
  367201091575612007070400, 367221004028738271680500, 367241079059297711669900, 367281012729875970643400, 367291362380632117291400,
  367311015807041837318700, 367321201436840873881500, 367330916945902491940700, 367341362380632117291400, 367381062807404761892400,
  367410799618520748227700, 367431167789617211760000, 367450678005637216668950, 367521362380632117291400, 367530954626887726719500,
  367551154436477949307800, 367571293065914061296900, 367611057928388344949200, 367621362380632117291400, 367630801067821478484500,
  367641105885696371137800, 367660909120682801965800, 367671362380632117291400, 367711122591104837454300, 367740979516492468381900,
  367761012729875970643400, 367770954626887726719500, 367810909120682801965800, 367830954626887726719500, 367840830079634203450600,
  367851122591104837454300, 367860815997451614730500, 367930829593015238333300, 367970857395031392337800, 367980576942511052054900,
  368010767056298688513000, 368021362380632117291400, 368041362380632117291400, 368050737383107891343100, 368071142658174383669600,
  368080930631820763660400, 368140906992942957237400, 368160829593015238333300, 368171252519403250480500, 368201142658174383669600,
  368241183204685194486000, 368270715610759506856100, 368280674960782571962000, 368291067936734200647400, 368300780076042568989600,
  368310828147206920810300, 368371091575612007070400, 368380870382539534479000, 368401362380632117291400, 368411201436840873881500,
  368420654209773506733950, 368450975260531026502300, 368480916945902491940700, 368550963482227460864000, 368571044575249082496900,
  368611098474899155765500, 368641362380632117291400, 368651018981911668776900, 368660895097748671101000, 368701048831210524376400,
  368730902868647103832500, 368740699974109337302100, 368751362380632117291400, 368811293065914061296900, 368821015807041837318700,
  368841022260893951076000, 368861009744579655675300, 368871113889967138491400, 368900598272207199800000, 368941223751196005302300,
  368950956336331062649600, 368960914646950669470900, 368980971178331574476800, 368990780076042568989600, 369021122591104837454300,
  369130676629225862752400, 369140715610759506856100, 369170652708494267815450, 369200832548895462487900, 369261201436840873881500,
  369291201436840873881500, 369300804785721802659800, 369350873345719295116000, 369380843084947028270400, 369390829593015238333300,
  369421142658174383669600, 369441201436840873881500, 369470659826800653439400, 369480576942511052054900, 369491067936734200647400,
  369511091575612007070400, 369521362380632117291400, 369531004028738271680500, 369560699974109337302100, 369581015807041837318700,
  369600674960782571962000, 369651004028738271680500, 369690895097748671101000, 369780828147206920810300, 369810949667193612782300,
  369830767056298688513000, 369840902868647103832500, 369861091575612007070400, 369880857395031392337800, 369911062807404761892400,
  369921113889967138491400, 369930930631820763660400, 369951167789617211760000, 369961183204685194486000, 369991201436840873881500,
  370000941911370178195000, 370020829593015238333300, 370081122591104837454300, 370090812663809587971300, 370110840345049609459000,
  370130915789820251833000, 370151223751196005302300, 370171362380632117291400, 370191293065914061296900, 370261098474899155765500,
  370270832548895462487900, 370300660899196989737000, 370340925435846870589400, 370381154436477949307800, 370401362380632117291400,
  370411079059297711669900, 370451044575249082496900, 370481022260893951076000, 370491154436477949307800, 370500847051472667513600,
  370510868933238804222300, 370570949667193612782300, 370611122591104837454300, 370660887887419280966500, 370700724199030376681650,
  370730882801577557617300, 370791362380632117291400, 370841362380632117291400, 370851036570978315143200, 370890674034373475982200,
  370901085121759893313300, 370941132122122817886900, 370951293065914061296900, 370960829593015238333300, 371010894167509404869400,
  371081293065914061296900, 371091154436477949307800, 371170844202277088082900, 371181252519403250480500, 371220824852791348874900,
  371241223751196005302300, 371290909120682801965800, 371381154436477949307800, 371421293065914061296900, 371451183204685194486000,
  371541142658174383669600, 371590840345049609459000, 371650882801577557617300, 371680868933238804222300, 371720847051472667513600,
  371871252519403250480500, 371901362380632117291400, 371921132122122817886900, 371931183204685194486000, 371951201436840873881500,
  371961167789617211760000, 371971029160181099771000, 372020914646950669470900, 372191293065914061296900, 372211223751196005302300,
  372381154436477949307800, 372391105885696371137800, 372471201436840873881500, 372550921708707390866200, 372570684161426516612400,
  372660936112644413160000, 372741252519403250480500, 372760981714383140259500, 372910858038120425366700, 373121201436840873881500,
  373190941911370178195000, 373211025651049118644100, 373220940429861599680800, 373230940429861599680800, 373240668068389835348600,
  373250848800788412265200, 373260825783030615106400, 373270843642051533216000, 373290647310486358038800, 373321362380632117291400,
  373350841432016833149500, 373361018981911668776900, 373410981714383140259500, 373471132122122817886900, 373511053276386781459800,
  373531167789617211760000, 373561362380632117291400, 373650719086622843373500, 373671362380632117291400, 373691252519403250480500,
  373761293065914061296900, 373771362380632117291400, 373801362380632117291400, 373851113889967138491400, 373921067936734200647400,
  373960900868580433165500, 373971223751196005302300, 374060638387372985244550, 374111362380632117291400, 374141223751196005302300,
  374280900868580433165500, 374321293065914061296900, 374331293065914061296900, 374340983961668725465300, 374381293065914061296900,
  374390986260620547935200, 374401223751196005302300, 374451252519403250480500, 374490916945902491940700, 374531362380632117291400,
  374571015807041837318700, 374631167789617211760000, 374671132122122817886900, 374700979516492468381900, 374761057928388344949200,
  374781223751196005302300, 374841142658174383669600, 374920839269770431832800, 374961362380632117291400, 374991183204685194486000,
  375040689040442933555600, 375071167789617211760000, 375090854240195618845100, 375181201436840873881500, 375211113889967138491400,
  375230924177968649903300, 375261362380632117291400, 375280730303802692233200, 375301183204685194486000, 375321025651049118644100,
  375411293065914061296900, 375421362380632117291400, 375501036570978315143200, 375550837153289312628400, 375591223751196005302300,
  375611223751196005302300, 375631362380632117291400, 375691105885696371137800, 375730922935716650047600, 375751113889967138491400,
  375761362380632117291400, 375860772665245353617400, 375991293065914061296900, 376041252519403250480500, 376140730303802692233200,
  376161022260893951076000, 376280758117348749053300, 376331252519403250480500, 376360840345049609459000, 376381362380632117291400,
  376481167789617211760000, 376530848800788412265200, 376560889641850246057300, 376581201436840873881500, 376591223751196005302300,
  376631362380632117291400, 376641362380632117291400, 376661012729875970643400, 376700815153564750144000, 376750790677861976669300,
  376790883631457839087000, 376831122591104837454300, 376881293065914061296900, 376941183204685194486000, 377031025651049118644100,
  377071362380632117291400, 377160958075505333836500, 377231223751196005302300, 377401362380632117291400, 377441183204685194486000,
  377490865399302159691400, 377501362380632117291400, 377541293065914061296900, 377581183204685194486000, 377621036570978315143200,
  377701362380632117291400, 377751073343456327675000, 377820946492323781324400, 378040988613670288954600, 378060663079119823995400,
  378081098474899155765500, 378111223751196005302300, 378131293065914061296900, 378321036570978315143200, 378411201436840873881500,
  378471067936734200647400, 378481201436840873881500, 378521223751196005302300, 378541057928388344949200, 378551252519403250480500,
  378570881978527643965800, 378581154436477949307800, 378641183204685194486000, 378771223751196005302300, 379071252519403250480500,
  379120822112893930063600, 379131293065914061296900, 379311362380632117291400, 379341183204685194486000, 379391252519403250480500,
  379410791337930379804500, 379440844765658859908600, 379461293065914061296900, 379501293065914061296900, 379560888760787277842000,
  379690839269770431832800, 379870837678224901242900, 379950774048393268463550, 380001085121759893313300, 380021057928388344949200,
  380121167789617211760000, 380131029160181099771000, 380141036570978315143200, 380151154436477949307800, 380231362380632117291400,
  380240981714383140259500, 380251018981911668776900, 380260841432016833149500, 380291362380632117291400, 380301362380632117291400,
  380311053276386781459800, 380341167789617211760000, 380351132122122817886900, 380371252519403250480500, 380390719086622843373500,
  380411362380632117291400, 380431223751196005302300, 380441252519403250480500, 380460900868580433165500, 380470822112893930063600,
  380481113889967138491400, 380491113889967138491400, 380500758117348749053300, 380521067936734200647400, 380531085121759893313300,
  380540735471003746665300, 380550638387372985244550, 380571057928388344949200, 380591362380632117291400, 380611362380632117291400,
  380621223751196005302300, 380631293065914061296900, 380640983961668725465300, 380651012729875970643400, 380661223751196005302300,
  380671167789617211760000, 380691113889967138491400, 380731293065914061296900, 380740979516492468381900, 380751029160181099771000,
  380761142658174383669600, 380781223751196005302300, 380790986260620547935200, 380801293065914061296900, 380810791337930379804500]

def emitE27_11 : List Nat := [
  380821015807041837318700, 380830900868580433165500, 380851132122122817886900, 380890916945902491940700, 380911362380632117291400,
  380931293065914061296900, 380940844765658859908600, 381020730303802692233200, 381071293065914061296900, 381080854240195618845100,
  381091105885696371137800, 381111362380632117291400, 381141362380632117291400, 381151113889967138491400, 381191223751196005302300,
  381200924177968649903300, 381231183204685194486000, 381241183204685194486000, 381250730303802692233200, 381261201436840873881500,
  381281362380632117291400, 381291293065914061296900, 381301252519403250480500, 381311167789617211760000, 381340689040442933555600,
  381360888760787277842000, 381401293065914061296900, 381421036570978315143200, 381431067936734200647400, 381441223751196005302300,
  381450946492323781324400, 381461022260893951076000, 381481252519403250480500, 381491362380632117291400, 381521223751196005302300,
  381550772665245353617400, 381560922935716650047600, 381600837153289312628400, 381611362380632117291400, 381631293065914061296900,
  381661362380632117291400, 381671293065914061296900, 381681362380632117291400, 381690883631457839087000, 381711223751196005302300,
  381741252519403250480500, 381750848800788412265200, 381770790677861976669300, 381791167789617211760000, 381800889641850246057300,
  381811167789617211760000, 381820815153564750144000, 381881362380632117291400, 381891362380632117291400, 381900865399302159691400,
  381921122591104837454300, 381961025651049118644100, 381971201436840873881500, 381981362380632117291400, 381990958075505333836500,
  382011362380632117291400, 382021183204685194486000, 382031223751196005302300, 382061183204685194486000, 382091036570978315143200,
  382150663079119823995400, 382201362380632117291400, 382211223751196005302300, 382240988613670288954600, 382251362380632117291400,
  382261098474899155765500, 382271293065914061296900, 382301154436477949307800, 382311223751196005302300, 382351057928388344949200,
  382360881978527643965800, 382371201436840873881500, 382461252519403250480500, 382511293065914061296900, 382531252519403250480500,
  382561183204685194486000, 382590837678224901242900, 382621057928388344949200, 382630758593540125077700, 382710758593540125077700,
  382720701311027645515500, 382741362380632117291400, 382750954626887726719500, 382830823473459135641400, 382861025651049118644100,
  382870971178331574476800, 382900996024467504326900, 382910926709749448332300, 382920948067159478138200, 383070649691551227410600,
  383131057928388344949200, 383161293065914061296900, 383171132122122817886900, 383211032796945516858500, 383311362380632117291400,
  383441167789617211760000, 383460896984597101539200, 383471362380632117291400, 383481167789617211760000, 383520975260531026502300,
  383570910201774412387400, 383580824852791348874900, 383640802909494157107600, 383691073343456327675000, 383701362380632117291400,
  383731132122122817886900, 383760701311027645515500, 383771362380632117291400, 383780954626887726719500, 383820847051472667513600,
  383830824852791348874900, 383840971178331574476800, 383851167789617211760000, 383860996024467504326900, 383871025651049118644100,
  383880926709749448332300, 383890948067159478138200, 383931025651049118644100, 383950749040827817626600, 383961132122122817886900,
  383971057928388344949200, 383981132122122817886900, 384010649691551227410600, 384051032796945516858500, 384061293065914061296900,
  384111293065914061296900, 384141362380632117291400, 384161073343456327675000, 384171167789617211760000, 384200896984597101539200,
  384211362380632117291400, 384230975260531026502300, 384250910201774412387400, 384311022260893951076000, 384420998622016144652800,
  384461091575612007070400, 384500965351440762079300, 384510576323553563425100, 384520896984597101539200, 384530740720022008805000,
  384540794022655383423300, 384590996024467504326900, 384630804785721802659800, 384641201436840873881500, 384681293065914061296900,
  384691105885696371137800, 384700802909494157107600, 384710988613670288954600, 384720804407649518669200, 384761132122122817886900,
  384770937531107912355600, 384801067936734200647400, 384851018981911668776900, 384931018981911668776900, 384951122591104837454300,
  384980802168750029321300, 384990740720022008805000, 385001079059297711669900, 385051201436840873881500, 385060940429861599680800,
  385120896984597101539200, 385150804407649518669200, 385170676839752256298700, 385180869655263601571000, 385200802909494157107600,
  385250576323553563425100, 385331293065914061296900, 385340618248593145529800, 385381022260893951076000, 385391167789617211760000,
  385420794022655383423300, 385430952946175895081500, 385440723188920778031300, 385481025651049118644100, 385511057928388344949200,
  385551105885696371137800, 385680952946175895081500, 385701201436840873881500, 385761362380632117291400, 385770723188920778031300,
  385800988613670288954600, 385820958075505333836500, 385840958075505333836500, 385851167789617211760000, 385881201436840873881500,
  385890959845463043776400, 385900946492323781324400, 385921122591104837454300, 385930775733826423961800, 385960649691551227410600,
  385970709292869344702900, 385980831060034213112800, 386011105885696371137800, 386030959845463043776400, 386041362380632117291400,
  386050826251415546348900, 386061006845825968350100, 386071032796945516858500, 386130888760787277842000, 386170896984597101539200,
  386191032796945516858500, 386221012729875970643400, 386260889641850246057300, 386270946492323781324400, 386320695177337571184800,
  386340690479316678765500, 386390879549258387061400, 386420581873927691442550, 386431252519403250480500, 386461079059297711669900,
  386470653957989907499800, 386511057928388344949200, 386540981714383140259500, 386561183204685194486000, 386571040493049630471300,
  386600809041683244539400, 386620969198068844858800, 386630648176974646611200, 386641293065914061296900, 386690858038120425366700,
  386711293065914061296900, 386780638100839837915950, 386840845332232613476400, 386860652957147524815900, 386950981714383140259500,
  387011001288840852869000, 387060856756051582460600, 387120776873439897048700, 387171040493049630471300, 387221252519403250480500,
  387241001288840852869000, 387280675375290937478900, 387380607630463835794700, 387391062807404761892400, 387420789370653819934000,
  387450702939286142313600, 387461062807404761892400, 387480702939286142313600, 387500795737963306048300, 387521142658174383669600,
  387531105885696371137800, 387540946492323781324400, 387571362380632117291400, 387601362380632117291400, 387610861317102707665900,
  387711362380632117291400, 387741362380632117291400, 387841362380632117291400, 387890865399302159691400, 387951029160181099771000,
  387971154436477949307800, 387990977365871946285700, 388021252519403250480500, 388161167789617211760000, 388290958075505333836500,
  388590808254277601448800, 388601018981911668776900, 388670800703522350634400, 388731293065914061296900, 388781044575249082496900,
  388860808254277601448800, 388871018981911668776900, 388890800703522350634400, 388901293065914061296900, 388911044575249082496900,
  388990819008431761867500, 389010882801577557617300, 389020906992942957237400, 389070882801577557617300, 389111018981911668776900,
  389131223751196005302300, 389140887887419280966500, 389151132122122817886900, 389171201436840873881500, 389180606320515840435800,
  389201048831210524376400, 389221006845825968350100, 389240965351440762079300, 389280998622016144652800, 389291122591104837454300,
  389301132122122817886900, 389310667586925255794600, 389351122591104837454300, 389360740321615107317600, 389451044575249082496900,
  389570788723402369372300, 389691154436477949307800, 389710979516492468381900, 389881057928388344949200, 389890952946175895081500,
  389910773216210934714350, 390001067936734200647400, 390031362380632117291400, 390060931974122796874500, 390130941911370178195000,
  390151036570978315143200, 390230758355160989550000, 390291223751196005302300, 390300887887419280966500, 390311132122122817886900,
  390331201436840873881500, 390340606320515840435800, 390351048831210524376400, 390361006845825968350100, 390371122591104837454300,
  390381036570978315143200, 390390667586925255794600, 390411132122122817886900, 390420965351440762079300, 390440998622016144652800,
  390460740321615107317600, 390471122591104837454300, 390491044575249082496900, 390531040493049630471300, 390570979516492468381900,
  390591154436477949307800, 390620849984234176965500, 390641057928388344949200, 390680773216210934714350, 390690952946175895081500,
  390721362380632117291400, 390740941911370178195000, 390800648811897414477000, 390871293065914061296900, 391081079059297711669900,
  391180648811897414477000, 391221293065914061296900, 391281079059297711669900, 391310610357176469828700, 391340610357176469828700,
  391511091575612007070400, 391541085121759893313300, 391651201436840873881500, 391661067936734200647400, 391731154436477949307800,
  391780937531107912355600, 391801122591104837454300, 391920929307298088658300, 391941293065914061296900, 392080916945902491940700,
  392141362380632117291400, 392211105885696371137800, 392500979516492468381900, 392521293065914061296900, 392771091575612007070400,
  392781085121759893313300, 392801067936734200647400, 392811201436840873881500, 392851122591104837454300, 392860979516492468381900,
  392921154436477949307800, 392961201436840873881500, 393020916945902491940700, 393171293065914061296900, 393181044575249082496900,
  393191252519403250480500, 393210631660400640817600, 393330991023425446860700, 393360825316829304525300, 393400637957880556956400,
  393420887021613006655000, 393470911294681465606400, 393480986260620547935200, 393611098474899155765500, 393761098474899155765500,
  393780983961668725465300, 393810895097748671101000, 393871252519403250480500, 394091252519403250480500, 394230797483208301170900,
  394251223751196005302300, 394380940429861599680800, 394391252519403250480500, 394670887021613006655000, 394691183204685194486000,
  394701252519403250480500, 394720831553862377171000, 394791223751196005302300, 394891029160181099771000, 394911142658174383669600,
  394920872596652122200400, 394930998622016144652800, 394981201436840873881500, 395091057928388344949200, 395111079059297711669900,
  395140906992942957237400, 395191040493049630471300, 395221001288840852869000, 395240949667193612782300, 395250898907733294327800,
  395301105885696371137800, 395320637957880556956400, 395350986260620547935200, 395360911294681465606400, 395370998622016144652800]

def emitE27_12 : List Nat := [
  395391098474899155765500, 395401001288840852869000, 395421252519403250480500, 395450983961668725465300, 395471098474899155765500,
  395500895097748671101000, 395561057928388344949200, 395571201436840873881500, 395581252519403250480500, 395621105885696371137800,
  395631223751196005302300, 395641079059297711669900, 395670797483208301170900, 395681252519403250480500, 395690940429861599680800,
  395761183204685194486000, 395781223751196005302300, 395801029160181099771000, 395811252519403250480500, 395820887021613006655000,
  395841142658174383669600, 395860872596652122200400, 395881040493049630471300, 395890898907733294327800, 395910949667193612782300,
  395920856121128814594800, 396360742940093006824200, 396400689637459632205900, 396491142658174383669600, 396541044575249082496900,
  396631142658174383669600, 396991122591104837454300, 397111201436840873881500, 397141122591104837454300, 397170855490211895268300,
  397191025651049118644100, 397211293065914061296900, 397290949667193612782300, 397301293065914061296900, 397400898907733294327800,
  397461085121759893313300, 397481293065914061296900, 397590697482177114813900, 397611362380632117291400, 397640975260531026502300,
  397700847051472667513600, 397910693545160722615300, 397961025651049118644100, 398111223751196005302300, 398251201436840873881500,
  398261113889967138491400, 398511132122122817886900, 398540981714383140259500, 398811098474899155765500, 399120833553929047838000,
  399491183204685194486000, 399771201436840873881500, 399860921708707390866200, 400230986260620547935200, 400561085121759893313300,
  400600847051472667513600, 400650693545160722615300, 400661025651049118644100, 400701223751196005302300, 400721085121759893313300,
  400751113889967138491400, 400771201436840873881500, 400911132122122817886900, 400920981714383140259500, 401001098474899155765500,
  401200833553929047838000, 401331183204685194486000, 401400921708707390866200, 401441201436840873881500, 401580986260620547935200,
  401650908051153890291100, 401790721857786314207300, 401800765765958204922300, 401821362380632117291400, 402301132122122817886900,
  402510694924492935848900, 402551091575612007070400, 402730791337930379804500, 402851201436840873881500, 402881091575612007070400,
  402891154436477949307800, 403000653539754249751950, 403060948067159478138200, 403291362380632117291400, 403460965351440762079300,
  403671025651049118644100, 403720773216210934714350, 403861293065914061296900, 404070981714383140259500, 404311293065914061296900,
  404341223751196005302300, 404410754846029008423100, 404420977365871946285700, 404751201436840873881500, 404771362380632117291400,
  404780912399665084264900, 404790908051153890291100, 404811012729875970643400, 404821362380632117291400, 404830765765958204922300,
  404850981714383140259500, 404951132122122817886900, 405091091575612007070400, 405100912399665084264900, 405110694924492935848900,
  405141362380632117291400, 405150791337930379804500, 405161091575612007070400, 405171201436840873881500, 405211154436477949307800,
  405220948067159478138200, 405270653539754249751950, 405291362380632117291400, 405350965351440762079300, 405421293065914061296900,
  405480773216210934714350, 405531293065914061296900, 405551223751196005302300, 405570977365871946285700, 405600754846029008423100,
  405631201436840873881500, 405730949667193612782300, 405750758832488864815800, 405831252519403250480500, 405950952946175895081500,
  405990658502277978437340, 406070732485707431697200, 406130703076178703047800, 406140703076178703047800, 406350877177605725329800,
  406360996024467504326900, 406430776587316668945500, 406440776587316668945500, 406540827669879045544700, 406570805546181741181800,
  406601091575612007070400, 406640822564361965516300, 406671018981911668776900, 406700886163238637515800, 406800848800788412265200,
  407011154436477949307800, 407021154436477949307800, 407180700774113604009800, 407200731570787966338400, 407230973198602306228700,
  407271362380632117291400, 407361032796945516858500, 407630884468282806138500, 407780740720022008805000, 407790662804016486806450,
  407840740720022008805000, 407860975260531026502300, 407881167789617211760000, 408001252519403250480500, 408010757407286594095700,
  408310975260531026502300, 408321167789617211760000, 408360757407286594095700, 408381252519403250480500, 408450563322943942899200,
  408481048831210524376400, 408521293065914061296900, 408570563322943942899200, 408581293065914061296900, 408600969198068844858800,
  408630969198068844858800]

def emitE28_0 : List Nat := [
  199680508227572981467550, 199690981847417820917200, 199770558436767361191200, 199890981847417820917200, 199930773903263652933600,
  199940981847417820917200, 199960586723045962774400, 199980802671470898111600, 200130436315306285147000, 200160820903626577507000,
  200200871986188954106100, 200260471860775038497300, 200290912532699764922700, 200300981847417820917200, 200410802671470898111600,
  200430491319939977074150, 200480912532699764922700, 200630742057890541080050, 200700787256402915385800, 200940981847417820917200,
  201020871986188954106100, 201040981847417820917200, 201080762124960087295200, 201130742057890541080050, 201160717941684859391200,
  201220912532699764922700, 201260912532699764922700, 201400725352482074763500, 201420638448697372402500, 201540426551459328755400,
  201630787256402915385800, 201700981847417820917200, 202020981847417820917200, 202190773903263652933600, 202480843217981708928100,
  202550687403519904273100, 202560981847417820917200, 202620912532699764922700, 202630912532699764922700, 202710629211365359301000,
  202800981847417820917200, 203040981847417820917200, 203050641727679654701600, 203090773903263652933600, 203110588664854548484600,
  203580704588545596939000, 204490536412688195566400, 204620590645117278102600, 205230912532699764922700, 205530687403519904273100,
  205810762124960087295200, 206250802671470898111600, 206300912532699764922700, 206330467097970139571800, 206590981847417820917200,
  207360981847417820917200, 207540912532699764922700, 207780843217981708928100, 208030468267574115891000, 208080698526083415295500,
  208090751588908521512500, 208110711042397710696150, 208340820903626577507000, 208400717941684859391200, 208480603428454429091050,
  208520652263731220484200, 208530787256402915385800, 208540981847417820917200, 208810981847417820917200, 208910443397911542008200,
  209120751588908521512500, 209140536412688195566400, 209340871986188954106100, 209750820903626577507000, 209770820903626577507000,
  209850981847417820917200, 210100843217981708928100, 210180648626966803396800, 210210820903626577507000, 210330725352482074763500,
  210690623495523975306100, 210730912532699764922700, 210830648626966803396800, 211230843217981708928100, 211330912532699764922700,
  211470787256402915385800, 211510464232444563534200, 211650820903626577507000, 211910698526083415295500, 212130820903626577507000,
  212700981847417820917200, 213150751588908521512500, 213190773903263652933600, 213260463108837236841600, 213350762124960087295200,
  213380912532699764922700, 213610981847417820917200, 213750725352482074763500, 214420733356752842117100, 214430733356752842117100,
  214500802671470898111600, 214510871986188954106100, 214520742057890541080050, 214570912532699764922700, 214870725352482074763500,
  214880762124960087295200, 215120912532699764922700, 215130981847417820917200, 215160711042397710696150, 215170981847417820917200,
  215350802671470898111600, 215660871986188954106100, 216080547466875635548800, 216440410804716083430100, 216470742057890541080050,
  217460981847417820917200, 217760981847417820917200, 218800871986188954106100, 219160871986188954106100, 220300820903626577507000,
  220630871986188954106100, 221200762124960087295200, 222400981847417820917200, 222690486264712060791000, 222700733356752842117100,
  222780843217981708928100, 222830486264712060791000, 222910843217981708928100, 222940733356752842117100, 223070981847417820917200,
  223120981847417820917200, 223130871986188954106100, 223690981847417820917200, 223720871986188954106100, 224780704588545596939000,
  225220843217981708928100, 225300981847417820917200, 226650981847417820917200, 227630704588545596939000, 227680733356752842117100,
  227910467097970139571800, 227970704588545596939000, 227990565959109484950000, 228100641727679654701600, 228230550098606467286100,
  228250711042397710696150, 228260552801473706078000, 228270981847417820917200, 228550871986188954106100, 228590648626966803396800,
  228940648626966803396800, 228990912532699764922700, 229090871986188954106100, 229140717941684859391200, 229150912532699764922700,
  229950538765737936585800, 229960981847417820917200, 230130515503508409710400, 230200981847417820917200, 230410981847417820917200,
  230710698526083415295500, 231100733356752842117100, 232670368074712412293750, 233760912532699764922700, 233840843217981708928100,
  233850871986188954106100, 233910981847417820917200, 233980843217981708928100, 234030871986188954106100, 234160843217981708928100,
  234180751588908521512500, 234250531866450787890600, 234330802671470898111600, 234390981847417820917200, 234470981847417820917200,
  234520981847417820917200, 234530871986188954106100, 234540871986188954106100, 234780327025507544679870, 235000981847417820917200,
  235260871986188954106100, 235270531866450787890600, 235360981847417820917200, 235420871986188954106100, 236650550098606467286100,
  237070773903263652933600, 237290496644391428955400, 237360981847417820917200, 237920871986188954106100, 237980773903263652933600,
  239130912532699764922700, 240130981847417820917200, 240290871986188954106100, 240330802671470898111600, 240370787256402915385800,
  240410751588908521512500, 240700912532699764922700, 241780912532699764922700, 241790507354204984592100, 241800618088801848278550,
  241850912532699764922700, 241910698526083415295500, 241960820903626577507000, 241980664042034786122600, 242070981847417820917200,
  242120773903263652933600, 242480672743172485085500, 242910698526083415295500, 243140638448697372402500, 243200725352482074763500,
  243470773903263652933600, 243570981847417820917200, 243750452015681166113500, 243780452015681166113500, 243800843217981708928100,
  243960981847417820917200, 244200618088801848278550, 244260802671470898111600, 244280620755626556494700, 244290871986188954106100,
  244490912532699764922700, 244640521330399222108000, 244710751588908521512500, 245010912532699764922700, 245030664042034786122600,
  245150820903626577507000, 245350912532699764922700, 245440820903626577507000, 245760787256402915385800, 246050981847417820917200,
  246350981847417820917200, 246460981847417820917200, 246580981847417820917200, 246820612959472409523500, 246840615491253207952500,
  246850981847417820917200, 248400567533945181763850, 249100871986188954106100, 249500664042034786122600, 250330773903263652933600,
  250790787256402915385800, 251040128304821853187430, 251120648626966803396800, 251360648626966803396800, 251650677395174048574860,
  251960820903626577507000, 253240912532699764922700, 253430912532699764922700, 254020843217981708928100, 254630981847417820917200,
  255620820903626577507000, 255880711042397710696150, 256680871986188954106100, 258850871986188954106100, 259180742057890541080050,
  259190717941684859391200, 259350912532699764922700, 259500871986188954106100, 259640912532699764922700, 259910539963357041257400,
  259960981847417820917200, 260070912532699764922700, 260320577542291037462100, 260410843217981708928100, 260850677395174048574860,
  260930843217981708928100, 261020659959835334097100, 261060981847417820917200, 261140912532699764922700, 261180843217981708928100,
  261220981847417820917200, 261240582949013164489700, 261260368724768872603060, 261430912532699764922700, 261490493567225562280050,
  261780659959835334097100, 261850912532699764922700, 261870912532699764922700, 261950981847417820917200, 261980773903263652933600,
  262020843217981708928100, 262160843217981708928100, 262220981847417820917200, 262300981847417820917200, 262340981847417820917200,
  262490773903263652933600, 262740871986188954106100, 263130981847417820917200, 263600787256402915385800, 263660802671470898111600,
  263760659959835334097100, 263770762124960087295200, 263880682274190465518000, 263910742057890541080050, 264120742057890541080050,
  264200912532699764922700, 264350453527044947118300, 264490733356752842117100, 264690704588545596939000, 264720802671470898111600,
  264800802671470898111600, 264810586723045962774400, 264940787256402915385800, 264970981847417820917200, 265190509108635949683000,
  265220762124960087295200, 265240871986188954106100, 265750820903626577507000, 266090981847417820917200, 266410773903263652933600,
  267250762124960087295200, 267270672743172485085500, 267530871986188954106100, 267570912532699764922700, 267710733356752842117100,
  267910787256402915385800, 268480538765737936585800, 269540802671470898111600, 269760981847417820917200, 269890981847417820917200,
  269970981847417820917200, 270040820903626577507000, 270350981847417820917200, 270360981847417820917200, 270540802671470898111600,
  271380912532699764922700, 271550820903626577507000, 271920912532699764922700, 271930773903263652933600, 272110762124960087295200,
  272920672743172485085500, 274020453527044947118300, 274270981847417820917200, 274910358996317461798800, 274940773903263652933600,
  275890802671470898111600, 276650538765737936585800, 277040773903263652933600, 277120725352482074763500, 277210725352482074763500,
  277430472472397740240900, 277840912532699764922700, 277850912532699764922700, 278030912532699764922700, 278150981847417820917200,
  278180981847417820917200, 278270507354204984592100, 278350843217981708928100, 278610717941684859391200, 278740692810242031300700,
  278880981847417820917200, 279050787256402915385800, 279150626312611671975800, 279410981847417820917200, 279460981847417820917200,
  279660912532699764922700, 279940698526083415295500, 280090981847417820917200, 280230664042034786122600, 280590981847417820917200,
  280850762124960087295200, 281420762124960087295200, 281450497428709175058000, 281490981847417820917200, 281550981847417820917200,
  281560981847417820917200, 281650632196661674269100, 281700981847417820917200, 281760981847417820917200, 281800871986188954106100,
  281930871986188954106100, 282050641727679654701600, 283040787256402915385800, 283100871986188954106100, 283560981847417820917200,
  283850981847417820917200, 283960981847417820917200, 284150981847417820917200, 284170871986188954106100, 284480981847417820917200,
  284500725352482074763500, 284720981847417820917200, 285000787256402915385800, 285260912532699764922700, 285720535256605955458700,
  286440981847417820917200, 287340535256605955458700, 287890871986188954106100, 288470592665388009854500, 288580471860775038497300,
  288720912532699764922700, 289250981847417820917200, 289760620755626556494700, 289820762124960087295200, 290200570760031403586000,
  290810618088801848278550, 291410773903263652933600, 291590981847417820917200, 293130981847417820917200, 295770802671470898111600]

def emitE28_1 : List Nat := [
  295790742057890541080050, 296140762124960087295200, 296150981847417820917200, 296180981847417820917200, 296260912532699764922700,
  296340912532699764922700, 296420762124960087295200, 296450871986188954106100, 296640981847417820917200, 297010762124960087295200,
  297020912532699764922700, 297380981847417820917200, 297470981847417820917200, 297480871986188954106100, 297710762124960087295200,
  297880843217981708928100, 297900871986188954106100, 298070762124960087295200, 298310820903626577507000, 298630733356752842117100,
  298720981847417820917200, 298850912532699764922700, 299830565959109484950000, 300000912532699764922700, 300010802671470898111600,
  300080687403519904273100, 300210871986188954106100, 303320912532699764922700, 303330648626966803396800, 303400335544472128850120,
  303470981847417820917200, 303550612959472409523500, 304220596832657649911300, 304950981847417820917200, 304960981847417820917200,
  305910641727679654701600, 306930687403519904273100, 307070843217981708928100, 309220717941684859391200, 310380871986188954106100,
  310620912532699764922700, 310770645117834822269700, 310870981847417820917200, 311180981847417820917200, 311190820903626577507000,
  311610981847417820917200, 311680912532699764922700, 311850981847417820917200, 312060871986188954106100, 312430912532699764922700,
  312580773903263652933600, 313020843217981708928100, 313100843217981708928100, 314350751588908521512500, 314560773903263652933600,
  315840981847417820917200, 316350871986188954106100, 316680912532699764922700, 316800871986188954106100, 318330871986188954106100,
  320050632196661674269100, 321730843217981708928100, 321770802671470898111600, 321860773903263652933600, 321910912532699764922700,
  322440912532699764922700, 322650820903626577507000, 323170981847417820917200, 323610843217981708928100, 324180632196661674269100,
  324340802671470898111600, 324510912532699764922700, 324940773903263652933600, 324990843217981708928100, 325000843217981708928100,
  325010912532699764922700, 325370820903626577507000, 326500843217981708928100, 326540820903626577507000, 326760981847417820917200,
  326810802671470898111600, 326900871986188954106100, 327010843217981708928100, 327240725352482074763500, 327640981847417820917200,
  327680981847417820917200, 327840981847417820917200, 327920981847417820917200, 328540981847417820917200, 328620820903626577507000,
  328740981847417820917200, 328800981847417820917200, 328820733356752842117100, 329640981847417820917200, 329880820903626577507000,
  332560871986188954106100, 332670773903263652933600, 332750603428454429091050, 332880652263731220484200, 332890981847417820917200,
  333110981847417820917200, 333220981847417820917200, 333910981847417820917200, 333950843217981708928100, 333990843217981708928100,
  334020981847417820917200, 334100871986188954106100, 334360623495523975306100, 334370843217981708928100, 334570981847417820917200,
  334590742057890541080050, 334640871986188954106100, 335090871986188954106100, 335210632196661674269100, 336200981847417820917200,
  336350802671470898111600, 336740820903626577507000, 337140981847417820917200, 337250542402502353673300, 337380871986188954106100,
  337750463108837236841600, 337780981847417820917200, 339450981847417820917200, 339950596832657649911300, 340300981847417820917200,
  340810912532699764922700, 341150682274190465518000, 341540623495523975306100, 341830981847417820917200, 342690981847417820917200,
  343490603428454429091050, 343820575803116766275200, 343880762124960087295200, 347010698526083415295500, 348140610490211150486300,
  348920820903626577507000, 348930981847417820917200, 349090536412688195566400, 349130843217981708928100, 350130843217981708928100,
  350370843217981708928100, 350410601181168843885150, 352110912532699764922700, 352650912532699764922700, 352820843217981708928100,
  353280717941684859391200, 354240742057890541080050, 354330981847417820917200, 354880843217981708928100, 354980388888503481927700,
  355840843217981708928100, 356000981847417820917200, 356090672743172485085500, 357990981847417820917200, 358020843217981708928100,
  358280388888503481927700, 358510843217981708928100, 358780672743172485085500, 358790981847417820917200, 359200820903626577507000,
  359980717941684859391200, 360200762124960087295200, 361060664042034786122600, 361260717941684859391200, 361490762124960087295200,
  361900664042034786122600, 362150605727406251560900, 362290687403519904273100, 362340773903263652933600, 362910981847417820917200,
  363350787256402915385800, 364930981847417820917200, 365230787256402915385800, 365570443397911542008200, 366060981847417820917200,
  366170638448697372402500, 366500912532699764922700, 366850912532699764922700, 367180912532699764922700, 367320981847417820917200,
  367330638448697372402500, 367610912532699764922700, 367930698526083415295500, 367980489849325238104600, 368010664042034786122600,
  368080733356752842117100, 368170762124960087295200, 368270431721596766444500, 368280465941887899464200, 368420981847417820917200,
  368660802671470898111600, 368730912532699764922700, 368900912532699764922700, 369130547466875635548800, 369140431721596766444500,
  369470843217981708928100, 369480489849325238104600, 369600465941887899464200, 369690802671470898111600, 369830664042034786122600,
  369840912532699764922700, 369930733356752842117100, 370020698526083415295500, 370090802671470898111600, 370300981847417820917200,
  372570656037764018768900, 373240601181168843885150, 373250912532699764922700, 373260981847417820917200, 373290773903263652933600,
  375860912532699764922700, 376280751588908521512500, 376580871986188954106100, 377070981847417820917200, 377820773903263652933600,
  378060912532699764922700, 380500751588908521512500, 381260871986188954106100, 381450773903263652933600, 381490981847417820917200,
  381550912532699764922700, 382150912532699764922700, 382630687403519904273100, 382710687403519904273100, 382830725352482074763500,
  383580871986188954106100, 383830871986188954106100, 383950820903626577507000, 384330912532699764922700, 384510751588908521512500,
  385250751588908521512500, 385960981847417820917200, 386170742057890541080050, 386320529668560116013100, 386340586723045962774400,
  386390981847417820917200, 386420742057890541080050, 386630725352482074763500, 386860648626966803396800, 387280871986188954106100,
  387380554180805919311600, 387420981847417820917200, 387450787256402915385800, 387480787256402915385800, 387500981847417820917200,
  387990751588908521512500, 388760773903263652933600, 388920773903263652933600, 389180509108635949683000, 389240802671470898111600,
  389480687403519904273100, 390340509108635949683000, 390420802671470898111600, 390560687403519904273100, 390620843217981708928100,
  390800751588908521512500, 391100912532699764922700, 391180751588908521512500, 391290912532699764922700, 391300912532699764922700,
  391310648626966803396800, 391340648626966803396800, 393210981847417820917200, 393890981847417820917200, 394670773903263652933600,
  395150687403519904273100, 395240981847417820917200, 395480981847417820917200, 395510687403519904273100, 395820773903263652933600,
  395910981847417820917200, 396400802671470898111600, 397170912532699764922700, 397450717941684859391200, 397910648626966803396800,
  400650648626966803396800, 401800912532699764922700, 402510656037764018768900, 403000843217981708928100, 403720981847417820917200,
  404830912532699764922700, 405110656037764018768900, 405270843217981708928100, 405480981847417820917200, 405990912532699764922700,
  406540762124960087295200, 408010912532699764922700, 408360912532699764922700, 408450594727316730128000, 408570594727316730128000]

def emitE29_0 : List Nat := [
  199680657004741690479100, 199690570456723743439700, 199750588611689144977000, 199760918195375745410000, 199780796555843312960600,
  199790776488773766745500, 199900405501800766168200, 199920848880657689415400, 199940862233796951867700, 199960597312826843940000,
  199970782740809464878850, 200130457179602995496800, 200160731015158055250800, 200250855334509803172500, 200271016278301046582500,
  200290685467605186968200, 200410855334509803172500, 200440877648864934593400, 200480716705073691183400, 200520821687286141051100,
  200650869644594167239800, 201100750019518344037300, 201130796555843312960600, 201170716705073691183400, 201220474372402622166000,
  201260474372402622166000, 201361056824811857399000, 201400739019428822604400, 201410804251947426573500, 201540272400740043217840,
  201600522352437921179700, 201610931548515007862200, 201771016278301046582500, 201790862233796951867700, 201950759783365300428850,
  201960918195375745410000, 202021016278301046582500, 202340583204967017949500, 202560906417072179771600, 202620621797018221468900,
  202710732956966640960950, 202721016278301046582500, 203040965195738669983400, 203150747720566521567400, 203240987510093801404500,
  203291056824811857399000, 203391016278301046582500, 203580515437241139168100, 203961016278301046582500, 204200946963582990588000,
  204450855334509803172500, 204470965195738669983400, 204490723604360839878600, 204620789409946914746100, 204890862233796951867700,
  205230621797018221468900, 206250782740809464878850, 206590906417072179771600, 206871126139529913393600, 207110804251947426573500,
  207361016278301046582500, 207381016278301046582500, 207990848880657689415400, 208030723604360839878600, 208081126139529913393600,
  208090786019791747178000, 208110384863128170737220, 208180848880657689415400, 208390591906104716912400, 208440895881020613988900,
  208450762380913940754900, 208480581035684556823500, 208520675053579261708500, 208570734937229370578900, 208690591906104716912400,
  208720741124769742387600, 208911056824811857399000, 208920757251584501999900, 208980848880657689415400, 209110918195375745410000,
  209600987510093801404500, 209610729110338558181300, 209640918195375745410000, 209750987510093801404500, 209770987510093801404500,
  209980821687286141051100, 209990987510093801404500, 210150842818195507771900, 210330476462030894807200, 210490895881020613988900,
  210690739019428822604400, 210700895881020613988900, 211470609660932521042100, 211510906417072179771600, 211520642511339218245700,
  211530918195375745410000, 211621016278301046582500, 211710804251947426573500, 211871126139529913393600, 212020466835076499149800,
  212090918195375745410000, 212131056824811857399000, 212140804251947426573500, 212200918195375745410000, 212701056824811857399000,
  212710789409946914746100, 212730965195738669983400, 212950708700802923829800, 213051056824811857399000, 213061056824811857399000,
  213121056824811857399000, 213190886350002633556500, 213260715052143496062300, 213331016278301046582500, 213350578493174720242500,
  213380789409946914746100, 213401016278301046582500, 213450614340148671718000, 213460842818195507771900, 213550683057850029062100,
  213611056824811857399000, 213800821687286141051100, 214050946963582990588000, 214070667642782046336300, 214101126139529913393600,
  214390710251221577426300, 214511126139529913393600, 214570877648864934593400, 214600848880657689415400, 214621056824811857399000,
  214750647390355635188900, 214760713426091408884300, 214870668668432063055200, 214880741124769742387600, 214911016278301046582500,
  214940776488773766745500, 214961126139529913393600, 215080653400748042159500, 215120946963582990588000, 215130640158289477226300,
  215210750019518344037300, 215220675053579261708500, 215250987510093801404500, 215310678405848465572900, 215700987510093801404500,
  216080931548515007862200, 216440642511339218245700, 217030837102354123777000, 217040569687489181124200, 217361126139529913393600,
  217761126139529913393600, 218920987510093801404500, 219161126139529913393600, 219320821687286141051100, 219341016278301046582500,
  219500808334146878598900, 220250918195375745410000, 221950808334146878598900, 222350731015158055250800, 222400625744899318847600,
  222530877648864934593400, 222660837102354123777000, 222690568544619598761900, 222700646560475353719400, 222830568544619598761900,
  222900877648864934593400, 222940646560475353719400, 223030946963582990588000, 223200602495333630398560, 223380987510093801404500,
  223500886350002633556500, 223530931548515007862200, 223650987510093801404500, 223690906417072179771600, 223740640158289477226300,
  223780895881020613988900, 224350789409946914746100, 224670869644594167239800, 224780536975108730816400, 224950869644594167239800,
  225220531075274654620800, 225301056824811857399000, 225610598328063990341800, 225640987510093801404500, 225751126139529913393600,
  226120538646456828190400, 226150862233796951867700, 226160789409946914746100, 226180848880657689415400, 226220698472918011787950,
  226860918195375745410000, 226970946963582990588000, 227610987510093801404500, 227630869644594167239800, 227680931548515007862200,
  227970750019518344037300, 227990837102354123777000, 228060946963582990588000, 228100568544619598761900, 228180877648864934593400,
  228230786019791747178000, 228270433090053318230900, 228300812590108320478600, 228330931548515007862200, 228360895881020613988900,
  228550552160238695470100, 228561126139529913393600, 228650918195375745410000, 228680792919078895873100, 228850578493174720242500,
  228870578493174720242500, 229000716705073691183400, 229580721834403129938450, 229711056824811857399000, 229820533981687949012000,
  230201126139529913393600, 230411016278301046582500, 230430792919078895873100, 230450800329876111245200, 230680572406103211539800,
  230711126139529913393600, 231490800329876111245200, 231560965195738669983400, 231591126139529913393600, 231951056824811857399000,
  233440965195738669983400, 233760720095228858751600, 233800895881020613988900, 233880848880657689415400, 233911126139529913393600,
  233951016278301046582500, 233980668668432063055200, 234160668668432063055200, 234250563018351731256900, 234291016278301046582500,
  234311126139529913393600, 234330490528763843804400, 234470459316705071653200, 234480918195375745410000, 234520931548515007862200,
  234530586323259761618200, 234580715052143496062300, 234600886350002633556500, 234670792919078895873100, 234700792919078895873100,
  234720729110338558181300, 234761056824811857399000, 234780946963582990588000, 234810965195738669983400, 234860759783365300428850,
  234940658856646467202900, 234950782740809464878850, 235000715052143496062300, 235191056824811857399000, 235270563018351731256900,
  235280675053579261708500, 235341126139529913393600, 235420586323259761618200, 235460886350002633556500, 235670575606376320157200,
  235691126139529913393600, 235720347525886135086330, 235780759783365300428850, 235880987510093801404500, 235911126139529913393600,
  236120484466301662160900, 236140638619797593278400, 236210661700439999256200, 236310848880657689415400, 236481056824811857399000,
  236650511720966500828900, 236960918195375745410000, 237030965195738669983400, 237061016278301046582500, 237070559843481899799000,
  237130741124769742387600, 237211126139529913393600, 237250489664454228202400, 237310987510093801404500, 237360796555843312960600,
  237841056824811857399000, 237861056824811857399000, 237920762380913940754900, 237980559843481899799000, 238220862233796951867700,
  238310965195738669983400, 238331016278301046582500, 238881016278301046582500, 239940489664454228202400, 240290564099443341678500,
  240300548684375358952700, 240371056824811857399000, 240380886350002633556500, 240510965195738669983400, 240520612559686208367400,
  240660765047738648971100, 240670577659836564328000, 240760648227180602240600, 240850804251947426573500, 240930453396357428308000,
  241020855334509803172500, 241180855334509803172500, 241200691758987728025150, 241780757251584501999900, 241790644111373352889900,
  241850757251584501999900, 241900987510093801404500, 241910987510093801404500, 241961126139529913393600, 241980821687286141051100,
  242110877648864934593400, 242130779565939633420900, 242151126139529913393600, 242180779565939633420900, 242200987510093801404500,
  242300862233796951867700, 242350877648864934593400, 242470842818195507771900, 242480812590108320478600, 242581126139529913393600,
  242650578493174720242500, 242910987510093801404500, 243110906417072179771600, 243140773503477451777300, 243201016278301046582500,
  243350855334509803172500, 243430800329876111245200, 243750776488773766745500, 243780776488773766745500, 244030754782323242962700,
  244211016278301046582500, 244221016278301046582500, 244291056824811857399000, 244430987510093801404500, 244660808334146878598900,
  244710587232356931743400, 245030356654722674932500, 245050987510093801404500, 245150789409946914746100, 245351056824811857399000,
  246050698472918011787950, 246810607961174884185000, 246881016278301046582500, 247350821687286141051100, 248001056824811857399000,
  248590987510093801404500, 249040877648864934593400, 249500821687286141051100, 250960711826057274240200, 251020877648864934593400,
  251040495694649671195400, 251051016278301046582500, 251120698472918011787950, 251360698472918011787950, 251420946963582990588000,
  251430946963582990588000, 251520946963582990588000, 251631016278301046582500, 251660747720566521567400, 251760559151437615341500,
  251960770604723764452200, 252890357661135561115050, 253080776488773766745500, 253430931548515007862200, 254631126139529913393600,
  255050767787636067782500, 255520808334146878598900, 255620770604723764452200, 257050631975287652463100, 257460699871542209261900,
  257730765047738648971100, 259190946963582990588000, 259580848880657689415400, 259910684255469133733700, 260310330107166998509530,
  260320773503477451777300, 260440750019518344037300, 260450918195375745410000, 260850480305701578914500, 261020762380913940754900,
  261060931548515007862200, 261140757251584501999900, 261240597819157039594600, 261260736957500102330900, 261310642511339218245700,
  261490965195738669983400, 261780762380913940754900, 261911016278301046582500, 261940987510093801404500, 262220577245757297724900,
  262300779565939633420900, 262341126139529913393600, 263480987510093801404500, 263540792919078895873100, 263561056824811857399000,
  263640525012812472977300, 263660648227180602240600, 263760831695631996749500, 263910713426091408884300, 263950906417072179771600]

def emitE29_1 : List Nat := [
  264080729110338558181300, 264120707174055710751000, 264260817035284577562000, 264351056824811857399000, 264411126139529913393600,
  264490686694614446149650, 264600946963582990588000, 264650837102354123777000, 264690515437241139168100, 264770918195375745410000,
  264800782740809464878850, 264810597312826843940000, 264940710251221577426300, 264950987510093801404500, 265000886350002633556500,
  265190547449791776722700, 265240931548515007862200, 265750987510093801404500, 265761126139529913393600, 265970987510093801404500,
  266071056824811857399000, 266110848880657689415400, 266410895881020613988900, 266810656091493334151900, 266840502502570893023000,
  266900918195375745410000, 267050691758987728025150, 267250736957500102330900, 267530965195738669983400, 267570877648864934593400,
  267810837102354123777000, 267900877648864934593400, 267910782740809464878850, 267970837102354123777000, 268620644921094376151800,
  269700965195738669983400, 269890862233796951867700, 270041056824811857399000, 270361126139529913393600, 270530886350002633556500,
  270540965195738669983400, 270830886350002633556500, 271380716705073691183400, 271551056824811857399000, 271691016278301046582500,
  271890931548515007862200, 271930895881020613988900, 272110736957500102330900, 272310817035284577562000, 274021056824811857399000,
  274310877648864934593400, 274531126139529913393600, 274680931548515007862200, 274720877648864934593400, 274940676158562880367000,
  276040530297060610415400, 276110812590108320478600, 276630754782323242962700, 276650594818932009214800, 276940987510093801404500,
  277000616764509832717240, 277040837102354123777000, 277120757251584501999900, 277190708700802923829800, 277210773503477451777300,
  277350906417072179771600, 277430653400748042159500, 277440931548515007862200, 277790770604723764452200, 278010779565939633420900,
  278070918195375745410000, 278270627778867742559800, 278350679548718047935100, 278361056824811857399000, 278490862233796951867700,
  278610895881020613988900, 278630877648864934593400, 278740715052143496062300, 278880680704800288042700, 279010786019791747178000,
  279310669704710766609900, 279410666627544899934500, 279460965195738669983400, 279541016278301046582500, 279631056824811857399000,
  279790759783365300428850, 279820987510093801404500, 280060848880657689415400, 280100918195375745410000, 280141126139529913393600,
  280230595312760173273100, 280340862233796951867700, 280370773503477451777300, 280440918195375745410000, 280710946963582990588000,
  281420965195738669983400, 281450848880657689415400, 281470699871542209261900, 281491016278301046582500, 281650869644594167239800,
  281701016278301046582500, 281931016278301046582500, 282010842818195507771900, 282040759783365300428850, 282050987510093801404500,
  282160946963582990588000, 282461016278301046582500, 282511016278301046582500, 282630918195375745410000, 282860808334146878598900,
  283040708700802923829800, 283170918195375745410000, 283300691758987728025150, 283310842818195507771900, 283731016278301046582500,
  283920918195375745410000, 283930946963582990588000, 284221056824811857399000, 284500773503477451777300, 284810796555843312960600,
  285040821687286141051100, 285250821687286141051100, 285400831695631996749500, 285670946963582990588000, 285800786019791747178000,
  285951016278301046582500, 286251056824811857399000, 286390987510093801404500, 286570918195375745410000, 287121056824811857399000,
  287600946963582990588000, 287710808334146878598900, 287790685467605186968200, 287890877648864934593400, 288790877648864934593400,
  289090776488773766745500, 289820946963582990588000, 290660770604723764452200, 290810757251584501999900, 291050776488773766745500,
  291410895881020613988900, 291510862233796951867700, 292330987510093801404500, 292380757251584501999900, 292460347525886135086330,
  292600987510093801404500, 292730877648864934593400, 292890782740809464878850, 293050339390673043480630, 293690817035284577562000,
  294681016278301046582500, 294940817035284577562000, 295770776488773766745500, 295790271697612146410600, 295950583204967017949500,
  296320705670267974296900, 296401016278301046582500, 296420965195738669983400, 296450918195375745410000, 296641016278301046582500,
  296770759783365300428850, 297020618622148390010800, 297381126139529913393600, 297470532385909405150850, 297481126139529913393600,
  297560946963582990588000, 297850842818195507771900, 297900727241125256966000, 297910636355549918302400, 298020583204967017949500,
  298521126139529913393600, 298980946963582990588000, 299161016278301046582500, 299260596809047440944250, 299760987510093801404500,
  299830581035684556823500, 300000711826057274240200, 300080862233796951867700, 300530831695631996749500, 300700754782323242962700,
  300790821687286141051100, 303310603564862542073400, 303320877648864934593400, 303330848880657689415400, 303431126139529913393600,
  303820765047738648971100, 304220821687286141051100, 304241126139529913393600, 304270906417072179771600, 304361126139529913393600,
  304390842818195507771900, 304461126139529913393600, 304561126139529913393600, 304650747720566521567400, 304950770604723764452200,
  307070869644594167239800, 307720671810051686393100, 308050731015158055250800, 308890731015158055250800, 310360946963582990588000,
  310380821687286141051100, 310620643308156183163400, 310680796555843312960600, 310690792919078895873100, 310700987510093801404500,
  310770946963582990588000, 310870346657214695454600, 311180346657214695454600, 311190598839574057018800, 311430458557207749908700,
  311500946963582990588000, 311850527745901844674500, 312150848880657689415400, 313021016278301046582500, 313090848880657689415400,
  313190895881020613988900, 313540918195375745410000, 314350877648864934593400, 314560987510093801404500, 314611056824811857399000,
  314710946963582990588000, 314811126139529913393600, 315320716705073691183400, 315610895881020613988900, 315741126139529913393600,
  318590517235042368708900, 320040773503477451777300, 320051126139529913393600, 320130550249352525665450, 320161056824811857399000,
  320321056824811857399000, 320340668668432063055200, 320800906417072179771600, 321130895881020613988900, 321140782740809464878850,
  321210789409946914746100, 321430895881020613988900, 321730687936866446005400, 322361016278301046582500, 322910710251221577426300,
  323050782740809464878850, 323111126139529913393600, 323260918195375745410000, 324181126139529913393600, 324220773503477451777300,
  324350550249352525665450, 324370782740809464878850, 324451056824811857399000, 324670906417072179771600, 324790895881020613988900,
  324820789409946914746100, 324850895881020613988900, 325000687936866446005400, 325171016278301046582500, 325331126139529913393600,
  325540918195375745410000, 325970641720821267534400, 325990437793271272084300, 326220965195738669983400, 326450437793271272084300,
  326520727241125256966000, 326540770604723764452200, 326810855334509803172500, 327010987510093801404500, 327030821687286141051100,
  327051126139529913393600, 327090906417072179771600, 327241126139529913393600, 327520533981687949012000, 327711126139529913393600,
  328191016278301046582500, 328220725406211390146450, 328820931548515007862200, 329430786019791747178000, 329460906417072179771600,
  329881056824811857399000, 329931126139529913393600, 330211056824811857399000, 330670708700802923829800, 330730708700802923829800,
  330980987510093801404500, 332030690468647244434300, 332400987510093801404500, 332510886350002633556500, 332880675053579261708500,
  332930715052143496062300, 332981126139529913393600, 333910855334509803172500, 334021126139529913393600, 334261126139529913393600,
  334330837102354123777000, 334370610810370463615600, 334520782740809464878850, 334851016278301046582500, 334870708700802923829800,
  334890918195375745410000, 335210631975287652463100, 335641126139529913393600, 335760505481937240900800, 335860734937229370578900,
  335891056824811857399000, 336090734937229370578900, 336200792919078895873100, 336350965195738669983400, 336430895881020613988900,
  336730931548515007862200, 336741126139529913393600, 336780702728879453667600, 337070747720566521567400, 337130621153929188439800,
  337750715052143496062300, 337780648227180602240600, 338020621153929188439800, 338290862233796951867700, 338320630556824153267400,
  338360588611689144977000, 338650776488773766745500, 339220637104617091218100, 339430906417072179771600, 339450655186509782160100,
  339700729110338558181300, 339801016278301046582500, 339950821687286141051100, 340930895881020613988900, 342170630556824153267400,
  342691126139529913393600, 342760906417072179771600, 343110708700802923829800, 343490581035684556823500, 343820987510093801404500,
  343940729110338558181300, 343950729110338558181300, 348140855334509803172500, 348921016278301046582500, 349070683057850029062100,
  349260444795069962303900, 349740444795069962303900, 350410388676628391499030, 351400931548515007862200, 351990454359060411024400,
  352110895881020613988900, 352151016278301046582500, 352650895881020613988900, 352681016278301046582500, 352820826566302557994300,
  353360906417072179771600, 353770855334509803172500, 354261126139529913393600, 355820640158289477226300, 356091056824811857399000,
  356130681874404264361900, 357310842818195507771900, 357450906417072179771600, 357530842818195507771900, 357680855334509803172500,
  358101126139529913393600, 358340640158289477226300, 358740681874404264361900, 358781056824811857399000, 358950776488773766745500,
  359200731015158055250800, 359461126139529913393600, 359611126139529913393600, 359970789409946914746100, 360020821687286141051100,
  360270895881020613988900, 360321016278301046582500, 360400965195738669983400, 360510759783365300428850, 360580987510093801404500,
  360660697093585798554400, 360840946963582990588000, 360930946963582990588000, 361060886350002633556500, 361250789409946914746100,
  361290821687286141051100, 361320697093585798554400, 361530895881020613988900, 361541016278301046582500, 361580965195738669983400,
  361690987510093801404500, 361820946963582990588000, 361870946963582990588000, 361900886350002633556500, 361960931548515007862200,
  362030687936866446005400, 363211126139529913393600, 363350592867650586856600, 363410699871542209261900, 363680699871542209261900,
  365540946963582990588000, 365571056824811857399000, 367100946963582990588000, 367630716705073691183400, 367860757251584501999900,
  367930808334146878598900, 367970946963582990588000, 367980482524493076450800, 368071056824811857399000, 368271126139529913393600]

def emitE29_2 : List Nat := [
  368280617999093414947200, 368300965195738669983400, 368380987510093801404500, 368420745473280936361500, 368571126139529913393600,
  368740609091130409578300, 368751056824811857399000, 368900826566302557994300, 368990965195738669983400, 369130931548515007862200,
  369141126139529913393600, 369380946963582990588000, 369421056824811857399000, 369470754782323242962700, 369480482524493076450800,
  369560609091130409578300, 369600617999093414947200, 369880946963582990588000, 370020808334146878598900, 370091126139529913393600,
  370270679548718047935100, 370300987510093801404500, 370700862233796951867700, 370730762380913940754900, 370960877648864934593400,
  371170676158562880367000, 371290869644594167239800, 371650762380913940754900, 372550918195375745410000, 373190767787636067782500,
  373240388676628391499030, 373260800329876111245200, 373290637859337654756400, 373410808334146878598900, 373650551519210859378200,
  376661016278301046582500, 376751056824811857399000, 377821016278301046582500, 378060631975287652463100, 379410743275390264484000,
  380240808334146878598900, 380390551519210859378200, 380541126139529913393600, 380651016278301046582500, 380810743275390264484000,
  381451016278301046582500, 381771056824811857399000, 382150631975287652463100, 382720629855066887402800, 382831016278301046582500,
  382910869644594167239800, 383760629855066887402800, 383880869644594167239800, 384280987510093801404500, 384501126139529913393600,
  384510613149658421086100, 384520711826057274240200, 384630817035284577562000, 384640732956966640960950, 384680987510093801404500,
  384980848880657689415400, 385120711826057274240200, 385170716705073691183400, 385180767787636067782500, 385250613149658421086100,
  385330773503477451777300, 385340776488773766745500, 385961016278301046582500, 385970629158199955793400, 386130906417072179771600,
  386321016278301046582500, 386340895881020613988900, 386420796555843312960600, 386470645737425440067900, 386690869644594167239800,
  387060877648864934593400, 387121056824811857399000, 387280877648864934593400, 387380886350002633556500, 387420918195375745410000,
  387500886350002633556500, 387611126139529913393600, 388590792919078895873100, 388860792919078895873100, 389180698472918011787950,
  389201056824811857399000, 389310536149794555144300, 389350817035284577562000, 389570895881020613988900, 389910723604360839878600,
  390340698472918011787950, 390351056824811857399000, 390390536149794555144300, 390470817035284577562000, 390530796555843312960600,
  390680723604360839878600, 390800721834403129938450, 391180721834403129938450, 391311126139529913393600, 391341126139529913393600,
  391511126139529913393600, 392771126139529913393600, 393210826566302557994300, 393331126139529913393600, 393400549620419634909000,
  393420918195375745410000, 395320549620419634909000, 396400539776412353583800, 397910673960672208489500, 400650673960672208489500,
  401690773503477451777300, 401790918195375745410000, 401800800329876111245200, 402511056824811857399000, 404411126139529913393600,
  404800773503477451777300, 404830800329876111245200, 405111056824811857399000, 405601126139529913393600, 405750837102354123777000,
  405990685467605186968200, 406130646560475353719400, 406140646560475353719400, 406430812590108320478600, 406440812590108320478600,
  406570654289642783884100, 406640886350002633556500, 407780723604360839878600, 407840723604360839878600, 408450631263540875576600,
  408570631263540875576600]

def emitE30_0 : List Nat := [
  199691106060064067832900, 199710829848321830584400, 199751244689500179822000, 199780709030872712620750, 199790855507470368759300,
  199900884502692467391300, 199920729167847889085700, 199941134828271313011000, 199960412855933581603700, 199971050098485274290600,
  200130548876351549101700, 200160697742937905435400, 200200653971827121282800, 200250609542772065883100, 200260820317303850152000,
  200271215921292934644000, 200290867797284001074800, 200371285236010990638500, 200410746100787739115800, 200440903464778394948000,
  200480710296712399813100, 200650687855049803712300, 200701193606937803223000, 200800893038677362507000, 200941244689500179822000,
  201081215921292934644000, 201130718766502395823000, 201170806071035697567600, 201220392226288128498450, 201260392226288128498450,
  201400366744011527711300, 201410912666668266973200, 201600741863810635214500, 201610953817410523385900, 201770790360021952821600,
  201790827250773190258400, 201801134828271313011000, 201820902371871341729000, 201851159959714141101700, 201901244689500179822000,
  201960952015559973118100, 202041054977501691233900, 202340963348428503818400, 202371285236010990638500, 202411045446483710801500,
  202500922801917693001900, 202620772246139498331100, 202710623095445814225000, 203130935585254843990400, 203150971686589397723600,
  203160762392887082251500, 203580686465261167611500, 203811001914676585016800, 203991014430990880417500, 204200766218490197805100,
  204451114761201766796000, 204491175374782123827400, 204890827250773190258400, 204971054977501691233900, 205230772246139498331100,
  208030860386486785702500, 208050921477395018000000, 208090833057153285734500, 208110572546930100757700, 208260884502692467391300,
  208390812055727298492700, 208401071229394641011400, 208441077291856822655000, 208451146606574878649500, 208480478223557645338700,
  208510571389001411372000, 208520630988814939958000, 208540672658322519080900, 208560630270936767257400, 208570783177448495696100,
  208690812055727298492700, 208720779611430455807700, 208921054977501691233900, 209140897079631196294800, 209180898115909899849500,
  209190825220246574183800, 209370935585254843990400, 209401065513553257016500, 209610926884117145027500, 209641021330278029112600,
  209751159959714141101700, 209771159959714141101700, 209991060106831129988900, 210150697742937905435400, 210161285236010990638500,
  210170955652324390205600, 210181354550729046633000, 210291106060064067832900, 210330501283452820170600, 210351106060064067832900,
  210630955652324390205600, 210690817953127544447900, 210831354550729046633000, 211291285236010990638500, 211471285236010990638500,
  211491193606937803223000, 211520660335058476686050, 211621065513553257016500, 211711106060064067832900, 211831285236010990638500,
  212020748638409488453300, 212130863285240473027700, 212141106060064067832900, 212181285236010990638500, 212201083745708936412000,
  212401193606937803223000, 212430980783767218296100, 212480980783767218296100, 212700663775201148419300, 212710453924340708713100,
  212801354550729046633000, 212830920170186861264700, 212950812497229119404500, 213060436614172278957800, 213120436614172278957800,
  213191106060064067832900, 213260778660551658904950, 213330980783767218296100, 213350357712190635235940, 213380864766749051541900,
  213450755905528518189200, 213460912666668266973200, 213550882700841917123600, 213780869347702654671300, 213801098055793300479300,
  213810941837290542123800, 213820990792113073994500, 214000902371871341729000, 214070462471740200195600, 214140967430627955844000,
  214390406865741127116700, 214500600435483533002100, 214511285236010990638500, 214521244689500179822000, 214571054977501691233900,
  214750563454990762074200, 214760513367461470791800, 214841045446483710801500, 214871114761201766796000, 214880651111936055082700,
  214901285236010990638500, 214941060106831129988900, 214960950245602263178000, 214991175374782123827400, 215080909115999421282200,
  215120880057516210308000, 215130856877354804575700, 215160719987092963773500, 215170913878804320207600, 215310931140078586907000,
  215550733893136374140300, 215560733893136374140300, 215660999015922897691600, 216080890111639132495800, 216321215921292934644000,
  216440751242106866752800, 217030839221569596855000, 217040842751347804957400, 217330609950579214221000, 217761146606574878649500,
  218920829848321830584400, 219161028741075244484700, 219340980783767218296100, 220250905687092073419000, 220301077291856822655000,
  220431193606937803223000, 220680802404637260408300, 222350873332293509391300, 222381175374782123827400, 222401124292219747228400,
  222530657759808866444600, 222601193606937803223000, 222661011152008598118400, 222690162970673525703600, 222700858968023286506900,
  222801098055793300479300, 222830162970673525703600, 222851193606937803223000, 222900657759808866444600, 222940858968023286506900,
  223031175374782123827400, 223070682287749561088200, 223131065513553257016500, 223170800817302344779400, 223200622829488210649100,
  223230524921017782382300, 223300701608845220410500, 223310969535968875627100, 223361060106831129988900, 223381017821146047985600,
  223431354550729046633000, 223460817022888278216500, 223501244689500179822000, 223530959426357188490400, 223621354550729046633000,
  223630890111639132495800, 223641175374782123827400, 223650783177448495696100, 223660812497229119404500, 223671244689500179822000,
  223690630056574412932300, 223721021330278029112600, 223740630127977486298000, 223761285236010990638500, 223780836935755789250100,
  223951077291856822655000, 224350924144219726216000, 224661114761201766796000, 224670732293102239496100, 224780438846221554837100,
  224840851506936907389500, 224950664982459271846250, 224960882700841917123600, 225211215921292934644000, 225220784506371707564400,
  225300793970522417033300, 225331354550729046633000, 225341014430990880417500, 225610611480020792036200, 225641083745708936412000,
  225701159959714141101700, 225760855507470368759300, 225771134828271313011000, 225800701608845220410500, 226051285236010990638500,
  226120835255043957612000, 226151021330278029112600, 226160760533603774589800, 226220925504784931793800, 226260812497229119404500,
  226361244689500179822000, 226751175374782123827400, 226811285236010990638500, 226861098055793300479300, 226960945116272824423000,
  226971083745708936412000, 227071244689500179822000, 227210841560857554325600, 227270890111639132495800, 227411244689500179822000,
  227541175374782123827400, 227560870132020400774000, 227610783177448495696100, 227630649105763233339000, 227810816560993692587000,
  227881285236010990638500, 227990691878954121730500, 228060901290779731307400, 228100753179213442352900, 228230582061885114325700,
  228250788951547964647750, 228260925504784931793800, 228270715694588492070100, 228301354550729046633000, 228360685590802128736300,
  228390815187974411396800, 228550913878804320207600, 228561124292219747228400, 228621285236010990638500, 228651354550729046633000,
  228711004899972899985000, 228851106060064067832900, 228871106060064067832900, 228991354550729046633000, 229141244689500179822000,
  229820875801554768428400, 229870980783767218296100, 229921285236010990638500, 229931106060064067832900, 229950922801917693001900,
  230020854829501670221400, 230410672986730039199900, 230681354550729046633000, 231101285236010990638500, 232730847033347523250200,
  233760761061309484674300, 233850929701204841697000, 233880916348065579244800, 233911285236010990638500, 233951354550729046633000,
  233981244689500179822000, 234030929701204841697000, 234161244689500179822000, 234250577359703403056650, 234330506104392367301200,
  234391071229394641011400, 234480921477395018000000, 234500696071589808061400, 234510846410292548186800, 234521159959714141101700,
  234531083745708936412000, 234571285236010990638500, 234670685839868259981600, 234700685839868259981600, 234761106060064067832900,
  234780680498793086010700, 234810990792113073994500, 234860691614403702888100, 234871134828271313011000, 234940766777150868669100,
  235001065513553257016500, 235191134828271313011000, 235270577359703403056650, 235280712714235453011800, 235291285236010990638500,
  235341114761201766796000, 235421083745708936412000, 235460647818744181285500, 235510816560993692587000, 235530733691726436970100,
  235671354550729046633000, 235720541928476100780450, 235741285236010990638500, 236120720514798673857800, 236140840970885341606900,
  236210922801917693001900, 236270812055727298492700, 236311159959714141101700, 236630828281710156144500, 236650361635199118162400,
  236791017821146047985600, 237001175374782123827400, 237030800032984598676800, 237041285236010990638500, 237061244689500179822000,
  237070497306862482411400, 237130779611430455807700, 237210724288831472142500, 237250584340295041528000, 237291215921292934644000,
  237310828281710156144500, 237361036745346011838400, 237621060106831129988900, 237691146606574878649500, 237770660722280644937000,
  237861021330278029112600, 237920697043144986671000, 237961285236010990638500, 237980497306862482411400, 238050660722280644937000,
  238111050098485274290600, 238211050098485274290600, 238220904569762013606600, 238300940237256407479700, 238310800032984598676800,
  238330790360021952821600, 238541071229394641011400, 238601021330278029112600, 238881244689500179822000, 239011285236010990638500,
  239371285236010990638500, 239940584340295041528000, 239961017821146047985600, 240290515002985773418900, 240300328371612099964950,
  240380993458937782210500, 240520716708110681474300, 240551014430990880417500, 240660377389535924378300, 240670791071768729708100,
  240720890111639132495800, 240851077291856822655000, 241070890111639132495800, 241200993458937782210500, 241401124292219747228400,
  241780788951547964647750, 241790574003266519547300, 241800996198835201022000, 241850788951547964647750, 241911354550729046633000,
  241960672439981820986500, 241980547023574416887200, 242081004899972899985000, 242110929701204841697000, 242120943463342629301800,
  242130858968023286506900, 242150714359009373914400, 242170736549063681375800, 242200767338950099091400, 242300471759932748773900,
  242350929701204841697000, 242370815187974411396800, 242451017821146047985600, 242470780250410265684700, 242640967430627955844000,
  242661098055793300479300, 242870736549063681375800, 242880869347702654671300, 242911354550729046633000, 243001004899972899985000,
  243070941837290542123800, 243101215921292934644000, 243110724839797053239500, 243140602473087540353300, 243200932599958529022300]

def emitE30_1 : List Nat := [
  243241050098485274290600, 243391354550729046633000, 243520892053447718206000, 243730892053447718206000, 243751175374782123827400,
  243781175374782123827400, 244020957521537691420800, 244031050098485274290600, 244180978430717477276700, 244411215921292934644000,
  244490929701204841697000, 244590882700841917123600, 244641193606937803223000, 244710857569399089033000, 244901215921292934644000,
  244941354550729046633000, 245010929701204841697000, 245030650497090025037500, 245090626687834814564800, 245150938662420710665800,
  245350730718266542682200, 245441285236010990638500, 245761054977501691233900, 246051285236010990638500, 246461077291856822655000,
  246581077291856822655000, 246810925504784931793800, 246881285236010990638500, 247351354550729046633000, 248001036745346011838400,
  248251098055793300479300, 248630929701204841697000, 249171354550729046633000, 249500547023574416887200, 250330943463342629301800,
  250791054977501691233900, 250961060106831129988900, 251040803611895383835200, 251420821278849720096100, 251430821278849720096100,
  251510904569762013606600, 251520780250410265684700, 251661041001307453718100, 251711114761201766796000, 251760879191709935996500,
  251960953817410523385900, 252371028741075244484700, 252521077291856822655000, 252531134828271313011000, 252890635107043936599600,
  253021215921292934644000, 253080560706173930154200, 253431036745346011838400, 253730815187974411396800, 254940856190066875799400,
  255520882700841917123600, 255620953817410523385900, 257050840970885341606900, 257460878333335566857400, 257900815187974411396800,
  259031028741075244484700, 259181244689500179822000, 259281285236010990638500, 259350971686589397723600, 259580585156996495705800,
  259910882700841917123600, 259951124292219747228400, 260091124292219747228400, 260291032663146559813000, 260310467892563716233300,
  260320779611430455807700, 260391032663146559813000, 260410959426357188490400, 260450926884117145027500, 260710752935013076797700,
  260851001914676585016800, 260860840384373396367000, 260870918879846377673800, 261020704572024981047600, 261061011152008598118400,
  261140825220246574183800, 261181244689500179822000, 261240576478640434841200, 261260679792076363701450, 261311354550729046633000,
  261431114761201766796000, 261490704421761992594050, 261741354550729046633000, 261780704572024981047600, 261851083745708936412000,
  261871083745708936412000, 262220839221569596855000, 262230952015559973118100, 262800999015922897691600, 263540861825360530912500,
  263601193606937803223000, 263611083745708936412000, 263640772839613050312600, 263710922801917693001900, 263761285236010990638500,
  263841050098485274290600, 263880924144219726216000, 263910670603085223748800, 263951114761201766796000, 263971354550729046633000,
  264080740994239938459100, 264110952015559973118100, 264120413075776523218800, 264211014430990880417500, 264351090644996085107200,
  264380980783767218296100, 264460980783767218296100, 264490678046831368578800, 264641215921292934644000, 264651134828271313011000,
  264690686465261167611500, 264721106060064067832900, 264770882700841917123600, 264791215921292934644000, 264810412855933581603700,
  264940999015922897691600, 264950935585254843990400, 264970721222766232663900, 265171244689500179822000, 265190568763973113452700,
  265240794708533146795500, 265311215921292934644000, 265500967430627955844000, 265750971686589397723600, 265800965368699235570400,
  265971134828271313011000, 266091114761201766796000, 266111215921292934644000, 266391106060064067832900, 266410789301811019768000,
  266461114761201766796000, 266471114761201766796000, 266810623028890071335500, 266840808592177632217200, 266911354550729046633000,
  267041077291856822655000, 267050978430717477276700, 267250648331565817977400, 267510980783767218296100, 267530857569399089033000,
  267570943463342629301800, 267711114761201766796000, 267811134828271313011000, 267921193606937803223000, 267991114761201766796000,
  268250988194564433668400, 268391215921292934644000, 268421244689500179822000, 268481354550729046633000, 268511193606937803223000,
  268620999015922897691600, 268651354550729046633000, 268661114761201766796000, 268931106060064067832900, 268981134828271313011000,
  269541106060064067832900, 269701193606937803223000, 269741193606937803223000, 269891134828271313011000, 269970721222766232663900,
  270040771069655340372500, 270141071229394641011400, 270531090644996085107200, 270541065513553257016500, 270911215921292934644000,
  271380710296712399813100, 271460861103335733563700, 271550771069655340372500, 271671146606574878649500, 271930789301811019768000,
  272110648331565817977400, 273961106060064067832900, 274021090644996085107200, 274250971686589397723600, 274271285236010990638500,
  274310594360533059116400, 274531071229394641011400, 274720594360533059116400, 274911114761201766796000, 274931175374782123827400,
  274940832515146538800500, 275110990792113073994500, 275120957521537691420800, 275830867797284001074800, 275971159959714141101700,
  276040796201098168463100, 276051077291856822655000, 276631134828271313011000, 276650849565128321679300, 277000588350973156443700,
  277041124292219747228400, 277120946796984656061000, 277190812497229119404500, 277210597043559095876900, 277330911469049162301600,
  277350686214634470005500, 277430379546233517378000, 277440740562273824007460, 277541065513553257016500, 277740831439867361174300,
  277770993458937782210500, 277780861103335733563700, 277790976131765654807000, 277841036745346011838400, 278010630270936767257400,
  278070659086842558534250, 278151004899972899985000, 278211285236010990638500, 278251071229394641011400, 278270395406281129491830,
  278350872522572486129300, 278370833602113762491000, 278391215921292934644000, 278490764835342282958900, 278500867030996726517800,
  278611014430990880417500, 278631354550729046633000, 278731146606574878649500, 278740692944210533351250, 278880820317303850152000,
  279010880057516210308000, 279020969535968875627100, 279150528217462302636200, 279310848926148511802100, 279340743848440272407500,
  279410561422252894043900, 279460996198835201022000, 279500934081467107536400, 279530978430717477276700, 279540378820224810828330,
  279641106060064067832900, 279690820796921076501300, 279820864766749051541900, 279881159959714141101700, 279961071229394641011400,
  280060746786504711729600, 280101036745346011838400, 280141014430990880417500, 280230349437589601764000, 280341021330278029112600,
  280371354550729046633000, 280390969535968875627100, 280441354550729046633000, 280701090644996085107200, 280711077291856822655000,
  280920935585254843990400, 280960912666668266973200, 281000867797284001074800, 281421090644996085107200, 281490988194564433668400,
  281650853487199637007500, 281700988194564433668400, 281860985662783635239300, 281920902371871341729000, 281930907959917181174700,
  282011146606574878649500, 282051354550729046633000, 282070481594842090776200, 282161021330278029112600, 282460509189308069296400,
  282480845791095523394500, 282631354550729046633000, 282860497686081746117700, 283040712388502265981200, 283170659086842558534250,
  283300724288831472142500, 283311146606574878649500, 283561004899972899985000, 283631004899972899985000, 283851193606937803223000,
  283900917605943799930800, 283920725764873030454500, 283930786875348819804800, 284151193606937803223000, 284480784172481581012900,
  284500597043559095876900, 284670969535968875627100, 285041285236010990638500, 285161090644996085107200, 285250784172481581012900,
  285261124292219747228400, 285271159959714141101700, 285400940237256407479700, 285671077291856822655000, 285800880057516210308000,
  285831146606574878649500, 285950904569762013606600, 286251354550729046633000, 286381090644996085107200, 286390864766749051541900,
  286570725764873030454500, 287121354550729046633000, 287600786875348819804800, 287710497686081746117700, 287720917605943799930800,
  287791354550729046633000, 287831090644996085107200, 287890891077830223669500, 288580820317303850152000, 288720920170186861264700,
  288790903464778394948000, 289021285236010990638500, 289091215921292934644000, 289251114761201766796000, 290040701317299824398100,
  290331285236010990638500, 290870854156098452087000, 291051215921292934644000, 291281090644996085107200, 291411285236010990638500,
  291510740346988487897400, 292381285236010990638500, 292460541928476100780450, 292541285236010990638500, 292551215921292934644000,
  292730540606676859172100, 292750885415940823718600, 292790833057153285734500, 292871285236010990638500, 293050610184360735073900,
  293130773137675864126400, 294201175374782123827400, 294220990792113073994500, 294251354550729046633000, 294360985662783635239300,
  294631098055793300479300, 295081354550729046633000, 295090990792113073994500, 295441175374782123827400, 295771159959714141101700,
  295790934081467107536400, 295951114761201766796000, 296150778345590768615300, 296420943463342629301800, 296641060106831129988900,
  296770928282741342501400, 296990983193522376202200, 297020761591814707643500, 297231159959714141101700, 297471159959714141101700,
  297481083745708936412000, 297851354550729046633000, 297911244689500179822000, 298021114761201766796000, 298631098055793300479300,
  298720778345590768615300, 299160899163039886578900, 299260717560630763810300, 299350996198835201022000, 299640996198835201022000,
  299830999015922897691600, 299920804833906517312800, 299951193606937803223000, 300000694836158857967900, 300020800424374530790300,
  300031193606937803223000, 300080690171755731865750, 300101054977501691233900, 300280867030996726517800, 300360953817410523385900,
  300411098055793300479300, 300501077291856822655000, 300531060106831129988900, 300580797335325828856500, 300701050098485274290600,
  300860572627283660726000, 303310870132020400774000, 303321054977501691233900, 303330826230356172834100, 303431285236010990638500,
  303470877482266600066500, 303821098055793300479300, 304060924144219726216000, 304101071229394641011400, 304221028741075244484700,
  304241159959714141101700, 304271146606574878649500, 304310733691726436970100, 304361159959714141101700, 304390912666668266973200,
  304421090644996085107200, 304460842751347804957400, 304521098055793300479300, 304650416407484364774100, 304730888206819635426300,
  304890922801917693001900, 304961106060064067832900, 306931146606574878649500, 307070755654587357646600, 307100809876991880002000,
  307190938662420710665800, 307221244689500179822000, 307651193606937803223000, 307791124292219747228400, 308651114761201766796000]

def emitE30_2 : List Nat := [
  308871354550729046633000, 309590809876991880002000, 309771017821146047985600, 310140938662420710665800, 310251124292219747228400,
  310361215921292934644000, 310380917605943799930800, 310621004899972899985000, 310691244689500179822000, 310701146606574878649500,
  310720909115999421282200, 310770932599958529022300, 311031146606574878649500, 311081146606574878649500, 311190772542436011396800,
  311501215921292934644000, 311611354550729046633000, 311620838645199125180200, 311661244689500179822000, 311681244689500179822000,
  311850656171732520819500, 312060999015922897691600, 312431354550729046633000, 313021004899972899985000, 313481024967042446200200,
  313770952015559973118100, 313891032663146559813000, 313910812940688826191000, 314011032663146559813000, 314021106060064067832900,
  314070952015559973118100, 314490846410292548186800, 314560993458937782210500, 314810847033347523250200, 314820824718992391829400,
  314991285236010990638500, 315321083745708936412000, 315651285236010990638500, 315720901290779731307400, 316611354550729046633000,
  316800911469049162301600, 316811215921292934644000, 317291175374782123827400, 318521175374782123827400, 318591106060064067832900,
  318901215921292934644000, 319081090644996085107200, 319181083745708936412000, 319251090644996085107200, 319751083745708936412000,
  320040606226287439248000, 320051354550729046633000, 320130642183450526172300, 320320969535968875627100, 320340775554711956907600,
  320431354550729046633000, 320570953817410523385900, 320850813833551900621200, 321141050098485274290600, 321151106060064067832900,
  321431159959714141101700, 321471215921292934644000, 321730940237256407479700, 322910406865741127116700, 323610971686589397723600,
  324181354550729046633000, 324220606226287439248000, 324350642183450526172300, 324610953817410523385900, 324631215921292934644000,
  324751106060064067832900, 324770813833551900621200, 324851159959714141101700, 324990971686589397723600, 325000940237256407479700,
  325731285236010990638500, 325970961368165774200500, 325990716708110681474300, 326001077291856822655000, 326450716708110681474300,
  326500859674740008816200, 326540645626413543881600, 326760967430627955844000, 326810746100787739115800, 327051050098485274290600,
  327240877482266600066500, 327361285236010990638500, 327520963348428503818400, 327641285236010990638500, 327691175374782123827400,
  327710924144219726216000, 327740793237918407826000, 328520517010810466797900, 328540682287749561088200, 328621354550729046633000,
  328790517010810466797900, 328990631277415428871500, 329010631277415428871500, 329181354550729046633000, 329220996198835201022000,
  329330758966992100149900, 329431285236010990638500, 329721114761201766796000, 329880863285240473027700, 330211028741075244484700,
  330260906817047598812400, 330320657665691212438200, 330330657665691212438200, 330500826739263123581300, 330980566319237148606200,
  331071193606937803223000, 331390826739263123581300, 332400566319237148606200, 332510976131765654807000, 332560653971827121282800,
  332581041001307453718100, 332670775860990909962200, 332760961368165774200500, 332781215921292934644000, 332861146606574878649500,
  332880630988814939958000, 332900918879846377673800, 332931024967042446200200, 333910925504784931793800, 333940934081467107536400,
  334100911469049162301600, 334261354550729046633000, 334360941837290542123800, 334521159959714141101700, 334570870922538351485200,
  334851124292219747228400, 334870559782871916476300, 334890854829501670221400, 335211124292219747228400, 335411028741075244484700,
  335421244689500179822000, 335760880930884207183400, 335860783177448495696100, 335890806071035697567600, 335901146606574878649500,
  335931354550729046633000, 336091285236010990638500, 336180937112002057069300, 336331090644996085107200, 336351065513553257016500,
  336740672439981820986500, 336780996198835201022000, 336940765110445620147900, 337061244689500179822000, 337071159959714141101700,
  337130826739263123581300, 337140976131765654807000, 337750778660551658904950, 337771354550729046633000, 337781159959714141101700,
  338020826739263123581300, 338290740346988487897400, 338320700015763013191000, 338361244689500179822000, 338531285236010990638500,
  338651060106831129988900, 338831004899972899985000, 339221175374782123827400, 339450848291225743936300, 339801124292219747228400,
  339951028741075244484700, 340211146606574878649500, 340280910285603397601400, 340300976131765654807000, 340810957521537691420800,
  341061285236010990638500, 341150716031289146860500, 341540941837290542123800, 341641175374782123827400, 342170700015763013191000,
  342550621510207862192750, 342981285236010990638500, 342991285236010990638500, 343110559782871916476300, 343141175374782123827400,
  343490478223557645338700, 343821106060064067832900, 343891285236010990638500, 343941071229394641011400, 343951071229394641011400,
  343980931140078586907000, 347461193606937803223000, 347841193606937803223000, 348920817022888278216500, 349030686968406883148200,
  349070882700841917123600, 349090897079631196294800, 349551244689500179822000, 349871244689500179822000, 350410570874250720226300,
  351400973884480069601100, 351990405435841498153900, 352011071229394641011400, 352581244689500179822000, 352640946796984656061000,
  352660946796984656061000, 352731244689500179822000, 352820840970885341606900, 355820861103335733563700, 355841114761201766796000,
  356241077291856822655000, 357031077291856822655000, 357311071229394641011400, 357531071229394641011400, 358340861103335733563700,
  358511114761201766796000, 358711077291856822655000, 358950770777684330039000, 359101146606574878649500, 359200697742937905435400,
  359371146606574878649500, 360020870922538351485200, 360081215921292934644000, 360230893038677362507000, 360321007977138766660400,
  360401244689500179822000, 360510691614403702888100, 360841114761201766796000, 360930831439867361174300, 361290870922538351485200,
  361351215921292934644000, 361541007977138766660400, 361581244689500179822000, 361821114761201766796000, 361870831439867361174300,
  362031175374782123827400, 362131045446483710801500, 362141285236010990638500, 362150854829501670221400, 362340855507470368759300,
  362451285236010990638500, 362491045446483710801500, 362751045446483710801500, 363050980783767218296100, 363350610947947411448100,
  365540794338846958662900, 366281146606574878649500, 366371036745346011838400, 366711146606574878649500, 367100794338846958662900,
  367411146606574878649500, 367451036745346011838400, 367631124292219747228400, 367841159959714141101700, 367861054977501691233900,
  367930766218490197805100, 367970841560857554325600, 367980652889760657211050, 368010976131765654807000, 368070906817047598812400,
  368081028741075244484700, 368270952015559973118100, 368280821278849720096100, 368300693615804729894950, 368381024967042446200200,
  368420915105813579389000, 368741065513553257016500, 368821354550729046633000, 368900742520987151538000, 368961036745346011838400,
  368990693615804729894950, 369130890111639132495800, 369140952015559973118100, 369381021330278029112600, 369420906817047598812400,
  369470740132165634068400, 369480652889760657211050, 369531004899972899985000, 369561065513553257016500, 369581354550729046633000,
  369600821278849720096100, 369651004899972899985000, 369830976131765654807000, 369880841560857554325600, 369931028741075244484700,
  370020766218490197805100, 370090892053447718206000, 370251134828271313011000, 370270706087205483107800, 370300787218402329483800,
  370380881811947175399000, 370411215921292934644000, 370451285236010990638500, 370481354550729046633000, 370660860386486785702500,
  370701124292219747228400, 370730783508027309146000, 370890834701025920050400, 370960983193522376202200, 371011215921292934644000,
  371090881811947175399000, 371120796577746448010800, 371170533783286611104800, 371290687855049803712300, 371650783508027309146000,
  371700796577746448010800, 371931146606574878649500, 371950797335325828856500, 373240570874250720226300, 373260835812148462557600,
  373290787908060235389750, 376100924144219726216000, 376700965368699235570400, 376750714691235593112200, 376790885415940823718600,
  377951146606574878649500, 378060584793194366398700, 379411175374782123827400, 380541071229394641011400, 380691285236010990638500,
  380811175374782123827400, 381380924144219726216000, 381690885415940823718600, 381770714691235593112200, 381820965368699235570400,
  382150584793194366398700, 382631045446483710801500, 382711045446483710801500, 382720522749701291945900, 382830932599958529022300,
  382910838645199125180200, 382961045446483710801500, 383070833602113762491000, 383520824718992391829400, 383640571389001411372000,
  383760522749701291945900, 383880838645199125180200, 383921045446483710801500, 383951354550729046633000, 384010833602113762491000,
  384230824718992391829400, 384280887267845600442400, 384420872522572486129300, 384510433097571387168000, 384520747476956246384000,
  384630859674740008816200, 384640864023251202790000, 384660988194564433668400, 384700718247918692586500, 384721114761201766796000,
  384730955652324390205600, 384851215921292934644000, 384880955652324390205600, 384931215921292934644000, 384951354550729046633000,
  384971285236010990638500, 384980785853193412651050, 385120747476956246384000, 385151114761201766796000, 385170642183450526172300,
  385181098055793300479300, 385200718247918692586500, 385250433097571387168000, 385340702194498431681800, 385410911469049162301600,
  385430957521537691420800, 385441193606937803223000, 385680957521537691420800, 385771193606937803223000, 385820733691726436970100,
  385840733691726436970100, 385921354550729046633000, 385960786875348819804800, 385970765386307864055900, 385980859674740008816200,
  386101285236010990638500, 386171244689500179822000, 386220820796921076501300, 386331354550729046633000, 386420718766502395823000,
  386470953817410523385900, 386691215921292934644000, 386861024967042446200200, 387061032663146559813000, 387121098055793300479300,
  387280891077830223669500, 387381054977501691233900, 387420913878804320207600, 387500608042455406678250, 387610934081467107536400,
  388590859674740008816200, 388671050098485274290600, 388860859674740008816200, 388891050098485274290600, 388991134828271313011000,
  389140928282741342501400, 389171146606574878649500, 389180751482203020506700, 389310640822885320594400, 389570685590802128736300,
  389911215921292934644000, 390030784172481581012900, 390231354550729046633000, 390300928282741342501400, 390331146606574878649500]

def emitE30_3 : List Nat := [
  390340751482203020506700, 390390640822885320594400, 390681215921292934644000, 390720784172481581012900, 390800854156098452087000,
  391180854156098452087000, 391920935585254843990400, 392080764287395706496400, 392500924144219726216000, 392860924144219726216000,
  393020764287395706496400, 393180941837290542123800, 393211175374782123827400, 393400494784071490021600, 394791090644996085107200,
  394980990792113073994500, 395150880057516210308000, 395320494784071490021600, 395510880057516210308000, 395570990792113073994500,
  395781090644996085107200, 396401244689500179822000, 397701106060064067832900, 397910737589655797487400, 398540581621161615584900,
  400601106060064067832900, 400650737589655797487400, 400920581621161615584900, 401791021330278029112600, 401801285236010990638500,
  403790779930409992617700, 404810820796921076501300, 404831285236010990638500, 405360779930409992617700, 405750980783767218296100,
  405951114761201766796000, 405990867797284001074800, 406130691218885718595300, 406140691218885718595300, 406351215921292934644000,
  406430999015922897691600, 406440999015922897691600, 406540570126657232451900, 406570776785496724367300, 406800884502692467391300,
  407181354550729046633000, 407630996198835201022000, 407780765940325901617400, 407791124292219747228400, 407840765940325901617400,
  408450657009336301037800, 408570657009336301037800]

def emitE31_0 : List Nat := [
  199791113952572378185000, 199871044637854322190400, 199940587683553487696300, 199960706198827987612900, 200130720770009105752200,
  200440934776625455379300, 200481044637854322190400, 201070919361557472653600, 201950934776625455379300, 202210653435553779375700,
  202470620505179065115700, 202500260252990506943150, 203070614231345001773400, 204490590308376095189900, 208090975323136266195900,
  208110640332727538735300, 208260345244556799871400, 208510665088935404970900, 208520836693700154206800, 208530690541921918458900,
  208910343742138373079880, 210330975323136266195900, 210480470337535541242100, 211470784368885777751950, 211500784368885777751950,
  211600883694063078780300, 212050883694063078780300, 212700715054167721757400, 213060501047551372130300, 213120501047551372130300,
  213260777222989379537500, 213270507574051509424100, 213320507574051509424100, 213780588203035175406700, 213810573235395232173000,
  214070824915396588568400, 214140761316519916568700, 214391044637854322190400, 214570665088935404970900, 214880534346797301647700,
  214960332512608997736200, 218300919361557472653600, 221200679572030192816450, 222420358519090005610100, 222531113952572378185000,
  222690381043198753525700, 222830381043198753525700, 222901113952572378185000, 222960358519090005610100, 223070830631237972563200,
  223300919361557472653600, 224670733286323401152900, 225300724770542567122200, 225770626432840058069700, 225800919361557472653600,
  226121044637854322190400, 227880631924415817681150, 228230585632199504386000, 228250919361557472653600, 228300367903541795651150,
  229960408421288044209700, 233760709647445594729800, 233980234016564060194070, 234160234016564060194070, 234311044637854322190400,
  234330850046839416659000, 234600704518116155974800, 235601044637854322190400, 235671044637854322190400, 235720608327991843354100,
  236160320895986954788400, 236370523416387572727800, 236650883694063078780300, 240370796147189343390300, 240720704518116155974800,
  241070704518116155974800, 241911044637854322190400, 241980919361557472653600, 242150698064264042217700, 242200256500746574634200,
  242370773832834211969400, 242640761316519916568700, 242880588203035175406700, 242911044637854322190400, 243070573235395232173000,
  243111113952572378185000, 243750684906628263345800, 243780684906628263345800, 244411044637854322190400, 245031044637854322190400,
  245150518628238949406500, 246870814379345022785700, 249500919361557472653600, 251520382430733402887400, 251630919361557472653600,
  252160752860781113762400, 252370809500328605842500, 252530626432840058069700, 253021113952572378185000, 254900865461907399384800,
  259190975323136266195900, 259450804848327042353300, 260311004091343511373900, 260410874163045098347900, 260530975323136266195900,
  260710919361557472653600, 261431004091343511373900, 262230934776625455379300, 263710260252990506943150, 264081113952572378185000,
  264480857457636632031100, 264810706198827987612900, 265000780732121360664400, 265190843147552267963900, 266570546620245661035600,
  268251004091343511373900, 269890587683553487696300, 270041113952572378185000, 270830780732121360664400, 271381044637854322190400,
  271551113952572378185000, 274911044637854322190400, 276680625672380119547800, 276830625672380119547800, 277731004091343511373900,
  278330850046839416659000, 278770707908271323542950, 278880906008418210201300, 279410906008418210201300, 279661044637854322190400,
  283040934776625455379300, 285260784368885777751950, 288790934776625455379300, 292460608327991843354100, 292750975323136266195900,
  292890526740793430643300, 293050975323136266195900, 294251044637854322190400, 295081044637854322190400, 296640770553851929670200,
  296990953008781134774800, 298270716923381022972700, 299920595774217348976350, 300000613557941783638900, 300050764301816231536900,
  303320665088935404970900, 304310553005392859688900, 304650683546063057767900, 305260620505179065115700, 307190850046839416659000,
  310140850046839416659000, 310380370526834164871350, 311850843147552267963900, 313540709647445594729800, 314350975323136266195900,
  314490627199127332626600, 316800975323136266195900, 316841113952572378185000, 317260883694063078780300, 318110883694063078780300,
  319950650479673555221300, 320130883694063078780300, 320680919361557472653600, 321780777222989379537500, 322180850046839416659000,
  322911044637854322190400, 323400410778446501872000, 324060906008418210201300, 324200906008418210201300, 324350883694063078780300,
  324470850046839416659000, 324520919361557472653600, 324550410778446501872000, 325930777222989379537500, 326260667361760512726500,
  326540919361557472653600, 328520588725229573521900, 328540830631237972563200, 328790588725229573521900, 329740777222989379537500,
  330210865461907399384800, 330410784368885777751950, 331260784368885777751950, 332880836693700154206800, 333220758417766229243500,
  333280883694063078780300, 333820883694063078780300, 334020906008418210201300, 334100975323136266195900, 335391113952572378185000,
  336470603965929595765000, 337750777222989379537500, 337771004091343511373900, 342550850046839416659000, 342690906008418210201300,
  342770603965929595765000, 343890631924415817681150, 344250596337599120802000, 348920198269161932880690, 352220819508674461540700,
  352700819508674461540700, 353380577823355807242300, 356960733286323401152900, 357580733286323401152900, 357590577823355807242300,
  358950722750271835370200, 360080819508674461540700, 360310934776625455379300, 361350819508674461540700, 361520934776625455379300,
  362750934776625455379300, 363350711417403304670000, 365540630324381683037100, 365570343742138373079880, 366500770553851929670200,
  367100630324381683037100, 367180770553851929670200, 367740784368885777751950, 367980660692623062859200, 368160919361557472653600,
  368300919361557472653600, 368820796147189343390300, 368900566306217185033800, 368950906008418210201300, 368990919361557472653600,
  369390919361557472653600, 369480660692623062859200, 369580796147189343390300, 370300511850237443232200, 370960274201737531159100,
  372020745064626966791300, 373290830631237972563200, 376280819508674461540700, 379950894230114644563000, 380500819508674461540700,
  382721044637854322190400, 383640665088935404970900, 383761044637854322190400, 384310397171653946540460, 384510975323136266195900,
  384690618369866618058800, 384980253340632317120960, 385050792064989891364800, 385170850046839416659000, 385250975323136266195900,
  385380397171653946540460, 385550618369866618058800, 385700792064989891364800, 386510764301816231536900, 389180919361557472653600,
  390340919361557472653600, 392080527873950031598300, 393020527873950031598300, 393400894230114644563000, 395320894230114644563000,
  396360614231345001773400, 406800345244556799871400]

def emitE32_0 : List Nat := [
  199680952022192958432500, 199690675333122845918150, 199711012635773315464000, 199770751139795511844300, 199790921006700128048500,
  199900935316784492115800, 199920997220705332738300, 199931191811720238269600, 199940512465106980268600, 199960744078038790448900,
  199970811145471261237600, 200051081950491371458500, 200130640066430591798800, 200160542587736736222400, 200181081950491371458500,
  200201122497002182275000, 200240855082137239622100, 200251053182284126280500, 200260751139795511844300, 200410572167307458817500,
  200440874006337203475000, 200480668700858552810900, 200560631599838150299500, 200571191811720238269600, 200610983867566070286000,
  200650815691708668913200, 200700687469208546344900, 200810927905987276743700, 200830707393011592410400, 200980927905987276743700,
  201050380528972363132170, 201070774372993248705800, 201081053182284126280500, 201130758738386209636400, 201160961553210938865000,
  201170842160964091621400, 201220508078438769710400, 201260508078438769710400, 201351191811720238269600, 201400570151110129783100,
  201410787506593454814600, 201461081950491371458500, 201540563959577821685100, 201601012635773315464000, 201610742948083265055550,
  201770927905987276743700, 201790892238492882870400, 201850961553210938865000, 201951012635773315464000, 201961081950491371458500,
  201970997220705332738300, 202020654747917425503300, 202140758738386209636400, 202150655214118736084400, 202210467746750812722900,
  202340927905987276743700, 202411012635773315464000, 202471081950491371458500, 202500473424648732024300, 202541030867928994859500,
  202560699086351722549100, 202620862228033637836700, 202710730299668554143600, 202761191811720238269600, 203011122497002182275000,
  203041191811720238269600, 203050808947580589360100, 203070662985017168816000, 203150902774544448653000, 203320785767419183627600,
  203390796687348380126800, 203510943321055259469600, 203580842160964091621400, 203810728338821415305900, 204150997220705332738300,
  204450681825077455849700, 204490472217997590712600, 204651030867928994859500, 204890892238492882870400, 205051191811720238269600,
  205230862228033637836700, 205810862228033637836700, 205981122497002182275000, 206130808947580589360100, 206251191811720238269600,
  206321030867928994859500, 206330935316784492115800, 206480858591269220749200, 206590699086351722549100, 206871122497002182275000,
  207110708183529543121700, 207230800609419695455000, 207290655214118736084400, 207360654747917425503300, 207860858591269220749200,
  207990756140837569310300, 208030501537446522410200, 208060722676932015355200, 208090560456915610560000, 208110462987280136257200,
  208180756140837569310300, 208260787506593454814600, 208281122497002182275000, 208390627267030473945800, 208400791078401715022500,
  208431191811720238269600, 208440935316784492115800, 208450997220705332738300, 208480631231513608669800, 208520665025904331936800,
  208530692090492861858000, 208551012635773315464000, 208561081950491371458500, 208570851691982072054000, 208690627267030473945800,
  208720921006700128048500, 208741122497002182275000, 208761122497002182275000, 208910972089262504647600, 208920608330646532009000,
  208961030867928994859500, 209140972089262504647600, 209281053182284126280500, 209401081950491371458500, 209640902774544448653000,
  209750892238492882870400, 209761012635773315464000, 209770892238492882870400, 209870961553210938865000, 209920961553210938865000,
  209991053182284126280500, 210021122497002182275000, 210100751139795511844300, 210190710593284701027800, 210210796687348380126800,
  210330464989418122313000, 210460713899370927116600, 210480705058275192711300, 210501191811720238269600, 210580645853168823853600,
  210661122497002182275000, 210691191811720238269600, 210730766962196033333700, 210950908490385832647900, 211090710593284701027800,
  211230751139795511844300, 211270908490385832647900, 211330766962196033333700, 211370645853168823853600, 211470509265716612738800,
  211500927905987276743700, 211510997220705332738300, 211520639266426325091200, 211600523977508772836400, 211710796687348380126800,
  211830921006700128048500, 211870771342458299172900, 212020578471915938604650, 212050523977508772836400, 212130777498247599116250,
  212140796687348380126800, 212180921006700128048500, 212200983867566070286000, 212421053182284126280500, 212461191811720238269600,
  212530908490385832647900, 212700596227983291786500, 212710822923774826875800, 212950780724333820938400, 213060748730040353938200,
  213101191811720238269600, 213120748730040353938200, 213131191811720238269600, 213190796687348380126800, 213260366306829963040050,
  213341191811720238269600, 213350747546594589237900, 213380825455555625304900, 213450774372993248705800, 213461191811720238269600,
  213481191811720238269600, 213550746376990612918800, 213600818044758409932600, 213641053182284126280500, 213670794782528883057400,
  213680914552848014291400, 213711053182284126280500, 213811081950491371458500, 213820613737368659036600, 213870735376901091485900,
  214070804691619147480500, 214100800609419695455000, 214141053182284126280500, 214160892238492882870400, 214420943321055259469600,
  214430943321055259469600, 214490972089262504647600, 214510753609056770881400, 214521191811720238269600, 214570492143571420615700,
  214640582004292021645500, 214720952022192958432500, 214750908490385832647900, 214761030867928994859500, 214851053182284126280500,
  214870961553210938865000, 214880769860949720658900, 214900703531527979632450, 214940789276551164754600, 214950658539840911732600,
  214961191811720238269600, 215120818044758409932600, 215131191811720238269600, 215160983867566070286000, 215170997220705332738300,
  215191122497002182275000, 215210802629690427206900, 215251053182284126280500, 215310869924137751449500, 215351191811720238269600,
  215431191811720238269600, 215551122497002182275000, 215561122497002182275000, 215600972089262504647600, 215701053182284126280500,
  216041191811720238269600, 216190725467810827062800, 216290465408705948316600, 216440493432723712456100, 216790972089262504647600,
  216970855082137239622100, 217040714743257791703100, 217330769860949720658900, 217760598058099730026900, 217770866002066436121300,
  218300749927659458609800, 218390723598597525847600, 218621081950491371458500, 218781191811720238269600, 219120855082137239622100,
  219161122497002182275000, 219430828053104265631000, 219941122497002182275000, 220250760062908884638500, 220301122497002182275000,
  220680851691982072054000, 221200544422650603042100, 221320828053104265631000, 221961081950491371458500, 222180997220705332738300,
  222350822923774826875800, 222400897367822321625600, 222420732299735224810500, 222530914552848014291400, 222601122497002182275000,
  222660908490385832647900, 222690658539840911732600, 222700696229014478143500, 222780892238492882870400, 222800762765776123430400,
  222830658539840911732600, 222851122497002182275000, 222900914552848014291400, 222910892238492882870400, 222940696229014478143500,
  222960732299735224810500, 223030779098281733760400, 223070769860949720658900, 223200552285560426724600, 223301191811720238269600,
  223460802629690427206900, 223590972089262504647600, 223630997220705332738300, 223650997220705332738300, 223681012635773315464000,
  223690921006700128048500, 223720927905987276743700, 223740754866934991567450, 223780997220705332738300, 223831191811720238269600,
  224110655682503667327050, 224181012635773315464000, 224351191811720238269600, 224381081950491371458500, 224431081950491371458500,
  224780777498247599116250, 225220634596317020493100, 225300746376990612918800, 225341191811720238269600, 225610798629156965837000,
  225641012635773315464000, 225761053182284126280500, 225770501738653833752300, 225801191811720238269600, 226020972089262504647600,
  226090874006337203475000, 226120702027740243178400, 226151012635773315464000, 226221191811720238269600, 226450952022192958432500,
  226591122497002182275000, 226661081950491371458500, 226810869924137751449500, 226841012635773315464000, 227181081950491371458500,
  227210818044758409932600, 227270997220705332738300, 227390735376901091485900, 227441012635773315464000, 227610997220705332738300,
  227630735376901091485900, 227680820454513567838700, 227710813392756846443500, 227810997220705332738300, 227880733314972371212400,
  227910935316784492115800, 227990952022192958432500, 228060902774544448653000, 228100866002066436121300, 228120887359476465927200,
  228180666062183035491400, 228230516351310289473400, 228250591670232442154550, 228260591423013527615600, 228270764145108336664000,
  228360709783563677765900, 228390794782528883057400, 228411191811720238269600, 228461191811720238269600, 228550808947580589360100,
  228681191811720238269600, 228700498957938421803000, 228710702027740243178400, 228850842160964091621400, 228870842160964091621400,
  228991122497002182275000, 229020780724333820938400, 229151122497002182275000, 229490983867566070286000, 229581122497002182275000,
  229820897367822321625600, 229870769860949720658900, 229961030867928994859500, 230391030867928994859500, 230410745220908372811100,
  230431012635773315464000, 230680818044758409932600, 231590836276914089328100, 233760542587736736222400, 233801012635773315464000,
  233830546922780823583800, 233860798629156965837000, 233880785767419183627600, 233940851691982072054000, 233980745220908372811100,
  234160745220908372811100, 234250643332026889204000, 234310851691982072054000, 234330447973367233838800, 234390892238492882870400,
  234470597269659377612000, 234500668700858552810900, 234510794782528883057400, 234521191811720238269600, 234530538723957465681000,
  234540811145471261237600, 234580952022192958432500, 234600721763683659027900, 234670858591269220749200, 234700858591269220749200,
  234780618801741940912100, 234810943321055259469600, 234941191811720238269600, 235000562100788244876000, 235260811145471261237600,
  235270643332026889204000, 235280830719928973847000, 235420538723957465681000, 235460699086351722549100, 235510997220705332738300,
  235560747546594589237900, 235720513140025177761500, 235760952022192958432500, 236090935316784492115800, 236120635359679506000200,
  236160897367822321625600, 236180997220705332738300, 236210943321055259469600, 236270815691708668913200, 236311081950491371458500,
  236330961553210938865000, 236370692768461560395900, 236480972089262504647600, 236520997220705332738300, 236650619780542577528400,
  237070808947580589360100, 237130921006700128048500, 237210769860949720658900, 237250836276914089328100, 237311053182284126280500]

def emitE32_1 : List Nat := [
  237361191811720238269600, 237920699813627655457100, 237980808947580589360100, 238031191811720238269600, 238301081950491371458500,
  238330927905987276743700, 239940836276914089328100, 240290737482242011269100, 240300610997471240225100, 240340851691982072054000,
  240370712232665678595500, 240520782377264016059500, 240550952022192958432500, 240651122497002182275000, 240670740725769586584500,
  240691053182284126280500, 240700669237052866949400, 240721081950491371458500, 240760802629690427206900, 240851081950491371458500,
  240881030867928994859500, 240930833459826392658500, 241011053182284126280500, 241020830719928973847000, 241071081950491371458500,
  241101081950491371458500, 241180830719928973847000, 241250869924137751449500, 241631122497002182275000, 241711081950491371458500,
  241780882707474902438000, 241790592665265527471300, 241800772846246035627000, 241850882707474902438000, 241910561733140771945100,
  241960836276914089328100, 241980739632862533365550, 242020657100967166522700, 242110628332759921344600, 242120836276914089328100,
  242131030867928994859500, 242150769860949720658900, 242180997220705332738300, 242300813392756846443500, 242310696229014478143500,
  242350628332759921344600, 242370972089262504647600, 242470682436700157593300, 242580800609419695455000, 242641053182284126280500,
  242820892238492882870400, 242910561733140771945100, 243071081950491371458500, 243140768401069778543600, 243200983867566070286000,
  243220822923774826875800, 243350570952717628606700, 243390758738386209636400, 243411081950491371458500, 243430833459826392658500,
  243750845238129958296900, 243780845238129958296900, 244050897367822321625600, 244180855082137239622100, 244250747546594589237900,
  244280839175667776653400, 244291122497002182275000, 244410613121982101598800, 244490902774544448653000, 244590921006700128048500,
  244710754866934991567450, 244940869924137751449500, 245010902774544448653000, 245030613429202005295800, 245090845238129958296900,
  245150721763683659027900, 245350997220705332738300, 245510687469208546344900, 246050943321055259469600, 246150707393011592410400,
  246180892238492882870400, 246461191811720238269600, 246581191811720238269600, 246810914552848014291400, 246870796687348380126800,
  246941122497002182275000, 248000818044758409932600, 248011122497002182275000, 248190855082137239622100, 248470943321055259469600,
  248591081950491371458500, 248631012635773315464000, 249041191811720238269600, 249500739632862533365550, 249620687469208546344900,
  250330836276914089328100, 250961122497002182275000, 250981081950491371458500, 251030943321055259469600, 251040653821984884223600,
  251120414158217419745500, 251360414158217419745500, 251380943321055259469600, 251420983867566070286000, 251430983867566070286000,
  251510818044758409932600, 251520792913315581842150, 251591081950491371458500, 251631122497002182275000, 251710761405210917852600,
  251760997220705332738300, 251870961553210938865000, 251951081950491371458500, 251961081950491371458500, 252060997220705332738300,
  252150972089262504647600, 252160593923143748157400, 252260728338821415305900, 252391012635773315464000, 252520961553210938865000,
  252530501738653833752300, 252770997220705332738300, 252890624823627940217550, 252991081950491371458500, 253001081950491371458500,
  253181191811720238269600, 253290972089262504647600, 253310858591269220749200, 253461191811720238269600, 253510567007432787426600,
  254141191811720238269600, 254630748730040353938200, 254751081950491371458500, 254840892238492882870400, 254991191811720238269600,
  255110972089262504647600, 255520927905987276743700, 255621081950491371458500, 257050780724333820938400, 257491191811720238269600,
  257730972089262504647600, 258020961553210938865000, 258761191811720238269600, 259030768401069778543600, 259180997220705332738300,
  259281122497002182275000, 259350848412999789754900, 259431191811720238269600, 259450312450513079338780, 259680633838737639647300,
  259760633838737639647300, 259910415679802143470840, 259950842160964091621400, 260070997220705332738300, 260090692768461560395900,
  260121191811720238269600, 260230780724333820938400, 260251191811720238269600, 260281191811720238269600, 260310494551095108094250,
  260320584277117129401200, 260410625515672224675000, 260451122497002182275000, 260531012635773315464000, 260630324238298283790700,
  260710943321055259469600, 260850576538450767859100, 260860753609056770881400, 260891191811720238269600, 261140887359476465927200,
  261221012635773315464000, 261240815691708668913200, 261260529671155061856100, 261310668167523955274600, 261430456760103054869800,
  261441191811720238269600, 261490833459826392658500, 261590842160964091621400, 261740858591269220749200, 261790997220705332738300,
  261950961553210938865000, 262020804691619147480500, 262160642094897708949400, 262220737482242011269100, 262230972089262504647600,
  262301122497002182275000, 262340983867566070286000, 263130961553210938865000, 263321122497002182275000, 263600687469208546344900,
  263640858591269220749200, 263671053182284126280500, 263710473424648732024300, 263760705830479802102300, 263770771342458299172900,
  263810815691708668913200, 263880972089262504647600, 263910943321055259469600, 263950753609056770881400, 263990751139795511844300,
  264080753609056770881400, 264101081950491371458500, 264121122497002182275000, 264260590930401694010050, 264320927905987276743700,
  264341030867928994859500, 264350813392756846443500, 264380908490385832647900, 264410746376990612918800, 264471053182284126280500,
  264480825455555625304900, 264490724528836792078900, 264650972089262504647600, 264690842160964091621400, 264720787506593454814600,
  264790680012338996594100, 264801191811720238269600, 264810744078038790448900, 264940866002066436121300, 264950645005706124756450,
  265120943321055259469600, 265171191811720238269600, 265190466111449529062300, 265240718191875398820000, 265380815691708668913200,
  265500813392756846443500, 265641053182284126280500, 265751191811720238269600, 265790866002066436121300, 265880897367822321625600,
  266070921006700128048500, 266091081950491371458500, 266120830719928973847000, 266131191811720238269600, 266291191811720238269600,
  266311191811720238269600, 266411191811720238269600, 266810484994520199465400, 266840658057912268137700, 266901053182284126280500,
  266910927905987276743700, 266940983867566070286000, 267001191811720238269600, 267051053182284126280500, 267250680612941402615200,
  267261081950491371458500, 267280961553210938865000, 267421081950491371458500, 267510908490385832647900, 267530921006700128048500,
  267570808947580589360100, 267810972089262504647600, 267900666062183035491400, 267921081950491371458500, 267970961553210938865000,
  267991191811720238269600, 268031030867928994859500, 268250972089262504647600, 268340882707474902438000, 268620730299668554143600,
  268850972089262504647600, 268981122497002182275000, 269540787506593454814600, 269641191811720238269600, 269890512465106980268600,
  270000997220705332738300, 270041081950491371458500, 270160927905987276743700, 270361191811720238269600, 270541030867928994859500,
  270850815691708668913200, 271230961553210938865000, 271330952022192958432500, 271380668700858552810900, 271551081950491371458500,
  271611191811720238269600, 271691122497002182275000, 271780961553210938865000, 271931191811720238269600, 271941081950491371458500,
  272110680612941402615200, 272251053182284126280500, 272310590930401694010050, 272430961553210938865000, 273310897367822321625600,
  273540927905987276743700, 274020813392756846443500, 274311053182284126280500, 274540887359476465927200, 274680839175667776653400,
  274721053182284126280500, 274910581332396996771000, 274930935316784492115800, 274940845238129958296900, 275110613737368659036600,
  275420908490385832647900, 275780927905987276743700, 275800813392756846443500, 275830777498247599116250, 275970897367822321625600,
  276020680012338996594100, 276040869924137751449500, 276110935316784492115800, 276310983867566070286000, 276630892238492882870400,
  276650855082137239622100, 276680670318144477371000, 276791191811720238269600, 276820972089262504647600, 276830670318144477371000,
  276910972089262504647600, 276940842160964091621400, 276950789276551164754600, 276961191811720238269600, 277000652448965603033400,
  277120892238492882870400, 277130848412999789754900, 277141053182284126280500, 277190780724333820938400, 277210691417089643723600,
  277420943321055259469600, 277430599922334810954900, 277440921006700128048500, 277480774372993248705800, 277660902774544448653000,
  277770935316784492115800, 277790648003789345950000, 278010733314972371212400, 278131081950491371458500, 278141191811720238269600,
  278270549975226644648400, 278330654747917425503300, 278350656153092771068300, 278490537276754204827600, 278610599386140496816400,
  278721053182284126280500, 278740908490385832647900, 278770887359476465927200, 278800737482242011269100, 278861122497002182275000,
  278880422145012085623300, 278930972089262504647600, 279010815691708668913200, 279050921006700128048500, 279150608330646532009000,
  279270997220705332738300, 279310935316784492115800, 279461191811720238269600, 279540766962196033333700, 279641053182284126280500,
  279660830719928973847000, 279691012635773315464000, 279741122497002182275000, 279820729314438909842400, 279860878262298645354600,
  279871053182284126280500, 279930766962196033333700, 280060764145108336664000, 280091081950491371458500, 280100550794232041652900,
  280141012635773315464000, 280230552118754716654900, 280341012635773315464000, 280370972089262504647600, 280440851691982072054000,
  280591191811720238269600, 280700658057912268137700, 280820708183529543121700, 281361053182284126280500, 281381191811720238269600,
  281451053182284126280500, 281471030867928994859500, 281651122497002182275000, 281830983867566070286000, 281920935316784492115800,
  281930882707474902438000, 281951053182284126280500, 282010688116459996906650, 282070774372993248705800, 282160820454513567838700,
  282460935316784492115800, 282630851691982072054000, 282670972089262504647600, 282710774372993248705800, 282860866002066436121300,
  282870887359476465927200, 283040601275535432812500, 283300787506593454814600, 283310688116459996906650, 283420855082137239622100,
  283571191811720238269600, 283631122497002182275000, 283931191811720238269600, 284020983867566070286000, 284080878262298645354600,
  284220848412999789754900, 284311191811720238269600, 284361053182284126280500, 284500691417089643723600, 284791122497002182275000]

def emitE32_2 : List Nat := [
  285000921006700128048500, 285160658057912268137700, 285260961553210938865000, 285720914552848014291400, 285800815691708668913200,
  285951081950491371458500, 286111053182284126280500, 286290887359476465927200, 286390729314438909842400, 286441191811720238269600,
  287011081950491371458500, 287340914552848014291400, 287601191811720238269600, 287710866002066436121300, 287790897367822321625600,
  287811191811720238269600, 287830830719928973847000, 287890878262298645354600, 288090820454513567838700, 288140784057975847697600,
  288570892238492882870400, 288580751139795511844300, 288600914552848014291400, 288790874006337203475000, 288950780724333820938400,
  289001030867928994859500, 289090839175667776653400, 289110742948083265055550, 289190714743257791703100, 289381053182284126280500,
  289660997220705332738300, 289821122497002182275000, 290010914552848014291400, 290170780724333820938400, 290281030867928994859500,
  290420983867566070286000, 290661012635773315464000, 290710972089262504647600, 290761122497002182275000, 290810681217172848211500,
  291050839175667776653400, 291130902774544448653000, 291231030867928994859500, 291280830719928973847000, 291900751139795511844300,
  292000820454513567838700, 292290380528972363132170, 292331081950491371458500, 292381053182284126280500, 292460513140025177761500,
  292540869924137751449500, 292550705058275192711300, 292560961553210938865000, 292600680612941402615200, 292730902774544448653000,
  292750656625906890662900, 292890741830753205243000, 293050556723148566795600, 293660566621331921680700, 293760566621331921680700,
  293781012635773315464000, 293920666062183035491400, 293991030867928994859500, 294170757431178052901200, 294220908490385832647900,
  294360882707474902438000, 294830866002066436121300, 295090908490385832647900, 295180498957938421803000, 295750543043318389808500,
  295770842160964091621400, 295790499350480633413500, 295850997220705332738300, 295950878262298645354600, 296150766962196033333700,
  296451122497002182275000, 296640706608693846307800, 296770746376990612918800, 296990820454513567838700, 297020943321055259469600,
  297341053182284126280500, 297480813392756846443500, 297860892238492882870400, 297900639665628452044900, 297911012635773315464000,
  298020878262298645354600, 298270972089262504647600, 298590997220705332738300, 298720766962196033333700, 299260848412999789754900,
  299421081950491371458500, 299430777498247599116250, 299771191811720238269600, 299830583818400728710500, 299861191811720238269600,
  299920690748190828644000, 299951081950491371458500, 300000572575471290782400, 300021012635773315464000, 300031012635773315464000,
  300050605164914544939900, 300111053182284126280500, 300280686187139703438700, 300441030867928994859500, 300591053182284126280500,
  300640822923774826875800, 300790727372630324132300, 300900952022192958432500, 301510704291987918154400, 301681030867928994859500,
  302720792913315581842150, 303310811145471261237600, 303320492143571420615700, 303330825455555625304900, 303340705830479802102300,
  303400543348196674744300, 303430738551770922944000, 303820796687348380126800, 303850952022192958432500, 303940952022192958432500,
  304061030867928994859500, 304080997220705332738300, 304101053182284126280500, 304150997220705332738300, 304160736424031078215400,
  304180961553210938865000, 304221053182284126280500, 304240822923774826875800, 304270556200954168680450, 304300997220705332738300,
  304310952022192958432500, 304360822923774826875800, 304391191811720238269600, 304461081950491371458500, 304520961553210938865000,
  304560794782528883057400, 304601122497002182275000, 304621053182284126280500, 304950600191513977526000, 305261081950491371458500,
  305550897367822321625600, 305631191811720238269600, 307010902774544448653000, 307070669237052866949400, 307170842160964091621400,
  307190754866934991567450, 307221030867928994859500, 307420972089262504647600, 307480983867566070286000, 307801122497002182275000,
  307890842160964091621400, 308021081950491371458500, 308130972089262504647600, 308270892238492882870400, 308440983867566070286000,
  308620858591269220749200, 308650882707474902438000, 308721053182284126280500, 308971012635773315464000, 308990727372630324132300,
  309130858591269220749200, 309380972089262504647600, 309521122497002182275000, 309670855082137239622100, 310140754866934991567450,
  310360645005706124756450, 310380935316784492115800, 310700690083736556777100, 310770902774544448653000, 311030983867566070286000,
  311080983867566070286000, 311190575269934815127600, 311430878262298645354600, 311500645005706124756450, 311610657578295041788400,
  311660935316784492115800, 311680731294701639460400, 311850483305290843014800, 312041081950491371458500, 312061081950491371458500,
  312321053182284126280500, 312370935316784492115800, 312430728338821415305900, 312460935316784492115800, 312950983867566070286000,
  313190961553210938865000, 313540789276551164754600, 313591191811720238269600, 313610921006700128048500, 313770772846246035627000,
  313830908490385832647900, 314021053182284126280500, 314070772846246035627000, 314350753609056770881400, 314490719961833108760100,
  314560997220705332738300, 314610855082137239622100, 314991081950491371458500, 315080972089262504647600, 315260830719928973847000,
  315320749927659458609800, 315481191811720238269600, 315580972089262504647600, 315630961553210938865000, 315651081950491371458500,
  315701081950491371458500, 315721122497002182275000, 315740839175667776653400, 315791012635773315464000, 316291012635773315464000,
  316490746376990612918800, 316650813392756846443500, 316800935316784492115800, 317211012635773315464000, 317260855082137239622100,
  317831191811720238269600, 318061030867928994859500, 318110855082137239622100, 318401191811720238269600, 318590997220705332738300,
  318670768401069778543600, 318691191811720238269600, 318810707393011592410400, 318901191811720238269600, 318930902774544448653000,
  318961191811720238269600, 319081122497002182275000, 319091030867928994859500, 319251122497002182275000, 319340727372630324132300,
  319571030867928994859500, 319641191811720238269600, 319681191811720238269600, 319950726415685222517200, 320000628332759921344600,
  320040983867566070286000, 320050702027740243178400, 320070720858700107036100, 320110842160964091621400, 320130690748190828644000,
  320200972089262504647600, 320231122497002182275000, 320250667109313022220900, 320320681217172848211500, 320330902774544448653000,
  320341030867928994859500, 320390887359476465927200, 320481030867928994859500, 320510983867566070286000, 320801191811720238269600,
  320971012635773315464000, 321040882707474902438000, 321130858591269220749200, 321140811145471261237600, 321311191811720238269600,
  321470645428539735708550, 321601081950491371458500, 321730636515761746107800, 321780510138132178772700, 321840818044758409932600,
  322020887359476465927200, 322180561366839996071400, 322270961553210938865000, 323020983867566070286000, 323050866002066436121300,
  323400703531527979632450, 323530952022192958432500, 323610866002066436121300, 323800952022192958432500, 324031122497002182275000,
  324060908490385832647900, 324121012635773315464000, 324180702027740243178400, 324200908490385832647900, 324210720858700107036100,
  324220983867566070286000, 324260628332759921344600, 324310972089262504647600, 324331122497002182275000, 324350690748190828644000,
  324370866002066436121300, 324380818044758409932600, 324400667109313022220900, 324410842160964091621400, 324420902774544448653000,
  324470561366839996071400, 324530983867566070286000, 324541030867928994859500, 324550703531527979632450, 324630645428539735708550,
  324660882707474902438000, 324671191811720238269600, 324761012635773315464000, 324790858591269220749200, 324811191811720238269600,
  324830952022192958432500, 324870952022192958432500, 324990866002066436121300, 325000636515761746107800, 325111081950491371458500,
  325181012635773315464000, 325360961553210938865000, 325521122497002182275000, 325530983867566070286000, 325680833459826392658500,
  325920983867566070286000, 325930510138132178772700, 325970866002066436121300, 325990616554456355706200, 326171030867928994859500,
  326180719072938367035500, 326221012635773315464000, 326450616554456355706200, 326500983867566070286000, 326540558661535248900400,
  326761122497002182275000, 326810572167307458817500, 326871191811720238269600, 326971191811720238269600, 327181053182284126280500,
  327240833459826392658500, 327521012635773315464000, 327630862228033637836700, 327640902774544448653000, 327730765543732534138000,
  328440802629690427206900, 328520595453785876424900, 328540769860949720658900, 328580897367822321625600, 328620811145471261237600,
  328740878262298645354600, 328790595453785876424900, 328800878262298645354600, 328820820454513567838700, 328870802629690427206900,
  329051012635773315464000, 329251191811720238269600, 329271081950491371458500, 329290768401069778543600, 329321081950491371458500,
  329371081950491371458500, 329430921006700128048500, 329561053182284126280500, 329571081950491371458500, 329740892238492882870400,
  329880777498247599116250, 330140921006700128048500, 330180656153092771068300, 330210645428539735708550, 330260866002066436121300,
  330301012635773315464000, 330320869924137751449500, 330330869924137751449500, 330410869924137751449500, 330421191811720238269600,
  330671191811720238269600, 330731191811720238269600, 330741191811720238269600, 330981053182284126280500, 331040839175667776653400,
  331260869924137751449500, 331361191811720238269600, 331501191811720238269600, 331510818044758409932600, 331521081950491371458500,
  331670806796960067263700, 331781081950491371458500, 331800775923411902302400, 331840921006700128048500, 332030983867566070286000,
  332401053182284126280500, 332511081950491371458500, 332561122497002182275000, 332580983867566070286000, 332611053182284126280500,
  332680914552848014291400, 332880665025904331936800, 333081122497002182275000, 333110766962196033333700, 333220848412999789754900,
  333370744078038790448900, 333910811145471261237600, 333940983867566070286000, 334020874006337203475000, 334100935316784492115800,
  334240892238492882870400, 334331030867928994859500, 334370851691982072054000, 334521081950491371458500, 334551081950491371458500,
  334570664511764381894800, 334591030867928994859500, 334760892238492882870400, 334890983867566070286000, 334951191811720238269600,
  335091053182284126280500, 335101191811720238269600, 335190858591269220749200, 335210664000254315217800, 335270887359476465927200]

def emitE32_3 : List Nat := [
  335380921006700128048500, 335760997220705332738300, 335860851691982072054000, 335900866002066436121300, 336090711409615764943900,
  336201191811720238269600, 336351030867928994859500, 336420908490385832647900, 336470647137983071638500, 336740836276914089328100,
  336780887359476465927200, 337071030867928994859500, 337130935316784492115800, 337141030867928994859500, 337221030867928994859500,
  337250731294701639460400, 337290972089262504647600, 337381191811720238269600, 337401191811720238269600, 337560997220705332738300,
  337750366306829963040050, 337770604882028924892100, 337781012635773315464000, 338020935316784492115800, 338161191811720238269600,
  338321122497002182275000, 338650789276551164754600, 338791081950491371458500, 339051191811720238269600, 339450997220705332738300,
  339760952022192958432500, 339840908490385832647900, 339931122497002182275000, 339951053182284126280500, 340130921006700128048500,
  340190882707474902438000, 340281081950491371458500, 340301030867928994859500, 340851191811720238269600, 341670882707474902438000,
  342171122497002182275000, 342241053182284126280500, 342491122497002182275000, 342530921006700128048500, 342550961553210938865000,
  342690874006337203475000, 342760921006700128048500, 342770647137983071638500, 343211053182284126280500, 343490631231513608669800,
  343820656625906890662900, 343890733314972371212400, 343941122497002182275000, 343951122497002182275000, 343990658539840911732600,
  344110780724333820938400, 344250705058275192711300, 344301030867928994859500, 344320757431178052901200, 344531030867928994859500,
  345031191811720238269600, 345071053182284126280500, 345930943321055259469600, 346450757431178052901200, 346621030867928994859500,
  347010866002066436121300, 348020780724333820938400, 348091122497002182275000, 348470943321055259469600, 348701030867928994859500,
  348800892238492882870400, 348920825455555625304900, 349070746376990612918800, 349090972089262504647600, 349130828053104265631000,
  349150866002066436121300, 349200792913315581842150, 349230935316784492115800, 349241030867928994859500, 349550789276551164754600,
  349660882707474902438000, 349721122497002182275000, 349870952022192958432500, 350130808947580589360100, 350290691417089643723600,
  350330983867566070286000, 350370808947580589360100, 350410804691619147480500, 350441012635773315464000, 351091053182284126280500,
  351221012635773315464000, 351781122497002182275000, 351831030867928994859500, 351990741830753205243000, 352060943321055259469600,
  352111191811720238269600, 352221081950491371458500, 352421081950491371458500, 352640628332759921344600, 352651191811720238269600,
  352660628332759921344600, 352701081950491371458500, 352820680012338996594100, 353280892238492882870400, 353360787506593454814600,
  353380354156634076892400, 353520686187139703438700, 354331122497002182275000, 354411012635773315464000, 354650972089262504647600,
  354860354641231771506370, 354880952022192958432500, 355160673073139654194000, 355190721763683659027900, 355270792913315581842150,
  355420902774544448653000, 355820718191875398820000, 356570765543732534138000, 356760927905987276743700, 356960609507130689967700,
  357030961553210938865000, 357090972089262504647600, 357220582004292021645500, 357450787506593454814600, 357580609507130689967700,
  357590354156634076892400, 357600686187139703438700, 357700902774544448653000, 357770765543732534138000, 357991122497002182275000,
  358020952022192958432500, 358051012635773315464000, 358210354641231771506370, 358340718191875398820000, 358430721763683659027900,
  358480792913315581842150, 358500673073139654194000, 358890927905987276743700, 358950908490385832647900, 359100921006700128048500,
  359200542587736736222400, 359370878262298645354600, 359460997220705332738300, 359610777498247599116250, 359800687469208546344900,
  359870866002066436121300, 359970882707474902438000, 359980869924137751449500, 360011191811720238269600, 360080737482242011269100,
  360270822923774826875800, 360281012635773315464000, 360390800609419695455000, 360661030867928994859500, 360671191811720238269600,
  360701081950491371458500, 360740713899370927116600, 360930775923411902302400, 361250882707474902438000, 361260869924137751449500,
  361301191811720238269600, 361321030867928994859500, 361331191811720238269600, 361350737482242011269100, 361360713899370927116600,
  361481012635773315464000, 361530822923774826875800, 361640800609419695455000, 361711081950491371458500, 361870775923411902302400,
  362030869924137751449500, 362340710593284701027800, 363170815691708668913200, 363350493711146166096600, 363670833459826392658500,
  363941012635773315464000, 365230848412999789754900, 365540765543732534138000, 365570972089262504647600, 365621053182284126280500,
  366000785767419183627600, 366290972089262504647600, 366351191811720238269600, 366370943321055259469600, 366451053182284126280500,
  366500724528836792078900, 366671122497002182275000, 367100765543732534138000, 367131053182284126280500, 367180724528836792078900,
  367240785767419183627600, 367310972089262504647600, 367421191811720238269600, 367450943321055259469600, 367461053182284126280500,
  367521122497002182275000, 367660845238129958296900, 367740927905987276743700, 367810845238129958296900, 367840839175667776653400,
  367860608330646532009000, 367931122497002182275000, 367980469701210420019950, 368081191811720238269600, 368160768401069778543600,
  368270720858700107036100, 368280661481229432361900, 368301012635773315464000, 368381053182284126280500, 368420570151110129783100,
  368550848412999789754900, 368651122497002182275000, 368730972089262504647600, 368740665025904331936800, 368790697647477977339100,
  368900426462229272144300, 368950678821848745962200, 368991012635773315464000, 369140720858700107036100, 369201191811720238269600,
  369380820454513567838700, 369390768401069778543600, 369470686826119513315900, 369480469701210420019950, 369560665025904331936800,
  369600661481229432361900, 369840972089262504647600, 369931191811720238269600, 370021122497002182275000, 370270842160964091621400,
  370300676482560788491700, 370701081950491371458500, 370960785767419183627600, 371170684921300016246400, 371221030867928994859500,
  371290815691708668913200, 371970935316784492115800, 372000813392756846443500, 372020830719928973847000, 372100784057975847697600,
  372300787506593454814600, 372310709783563677765900, 372321191811720238269600, 372331053182284126280500, 372380914552848014291400,
  372400620108950097647400, 372550719961833108760100, 372571191811720238269600, 372590858591269220749200, 372600952022192958432500,
  372740855082137239622100, 372750818044758409932600, 372921053182284126280500, 373240804691619147480500, 373260887359476465927200,
  373270791078401715022500, 373290560456915610560000, 373360961553210938865000, 373410887359476465927200, 373761191811720238269600,
  373850679415322297943600, 374110822923774826875800, 374140983867566070286000, 374241191811720238269600, 374280749927659458609800,
  374311122497002182275000, 374400792913315581842150, 374631191811720238269600, 374670855082137239622100, 374760878262298645354600,
  374840897367822321625600, 374921081950491371458500, 374991030867928994859500, 375040539162234281190600, 375090908490385832647900,
  375210997220705332738300, 375420997220705332738300, 375440887359476465927200, 375551053182284126280500, 375631030867928994859500,
  375690800609419695455000, 375730952022192958432500, 375750997220705332738300, 376100921006700128048500, 376151053182284126280500,
  376160798629156965837000, 376280782377264016059500, 376360897367822321625600, 376480897367822321625600, 376561191811720238269600,
  376640908490385832647900, 376660935316784492115800, 376701122497002182275000, 376750972089262504647600, 376830952022192958432500,
  377231053182284126280500, 377501053182284126280500, 377541191811720238269600, 377620897367822321625600, 377820972089262504647600,
  377841030867928994859500, 377940983867566070286000, 378130927905987276743700, 378321012635773315464000, 378570647137983071638500,
  379071122497002182275000, 379120983867566070286000, 379410762765776123430400, 379691081950491371458500, 379950983867566070286000,
  380121191811720238269600, 380131081950491371458500, 380240887359476465927200, 380250961553210938865000, 380410822923774826875800,
  380430983867566070286000, 380470983867566070286000, 380480679415322297943600, 380490997220705332738300, 380500782377264016059500,
  380560983867566070286000, 380570878262298645354600, 380631191811720238269600, 380650935316784492115800, 380671191811720238269600,
  380681122497002182275000, 380751081950491371458500, 380760897367822321625600, 380780792913315581842150, 380810762765776123430400,
  380830749927659458609800, 380850855082137239622100, 380881191811720238269600, 381080908490385832647900, 381090800609419695455000,
  381110997220705332738300, 381150997220705332738300, 381241030867928994859500, 381330887359476465927200, 381340539162234281190600,
  381380921006700128048500, 381421012635773315464000, 381450972089262504647600, 381460798629156965837000, 381501053182284126280500,
  381560952022192958432500, 381601053182284126280500, 381611030867928994859500, 381671191811720238269600, 381770972089262504647600,
  381791191811720238269600, 381801191811720238269600, 381810897367822321625600, 381821122497002182275000, 381890908490385832647900,
  381920952022192958432500, 381981053182284126280500, 382031053182284126280500, 382090897367822321625600, 382171030867928994859500,
  382270927905987276743700, 382360647137983071638500, 382461122497002182275000, 382581191811720238269600, 382630855082137239622100,
  382710855082137239622100, 382720731294701639460400, 382830983867566070286000, 382911030867928994859500, 383070845238129958296900,
  383090927905987276743700, 383760731294701639460400, 383820723598597525847600, 383881030867928994859500, 383950811145471261237600,
  384000927905987276743700, 384010845238129958296900, 384310780724333820938400, 384500908490385832647900, 384510671411051530590000,
  384521122497002182275000, 384531081950491371458500, 384631081950491371458500, 384640882707474902438000, 384690752366804771025700,
  384700727372630324132300, 384980590685002797853400, 384991081950491371458500, 385121122497002182275000, 385170927905987276743700,
  385181053182284126280500, 385200727372630324132300, 385250671411051530590000, 385340796687348380126800, 385380780724333820938400,
  385550752366804771025700, 385931122497002182275000, 385970851691982072054000, 385980927905987276743700, 386131081950491371458500]

def emitE32_4 : List Nat := [
  386171191811720238269600, 386201030867928994859500, 386220943321055259469600, 386320908490385832647900, 386341081950491371458500,
  386390611902454792216900, 386420758738386209636400, 386471191811720238269600, 386510605164914544939900, 386541081950491371458500,
  386601191811720238269600, 386840708183529543121700, 386951081950491371458500, 387060780724333820938400, 387120780724333820938400,
  387280878262298645354600, 387380887359476465927200, 387420775923411902302400, 387450927905987276743700, 387480927905987276743700,
  387521191811720238269600, 387540851691982072054000, 387610866002066436121300, 387720845238129958296900, 387950927905987276743700,
  388291191811720238269600, 388601053182284126280500, 388871053182284126280500, 388990680612941402615200, 389170684921300016246400,
  389180539749607482400000, 389310892238492882870400, 389350811145471261237600, 389361122497002182275000, 389450908490385832647900,
  389570709783563677765900, 389710943321055259469600, 389890751139795511844300, 389911191811720238269600, 390060768401069778543600,
  390230858591269220749200, 390330684921300016246400, 390340539749607482400000, 390390892238492882870400, 390461122497002182275000,
  390470811145471261237600, 390490908490385832647900, 390570943321055259469600, 390681191811720238269600, 390690751139795511844300,
  390800722676932015355200, 391180722676932015355200, 391310842160964091621400, 391340842160964091621400, 391351191811720238269600,
  391541053182284126280500, 391661053182284126280500, 391731191811720238269600, 392011053182284126280500, 392080897367822321625600,
  392350836276914089328100, 392781053182284126280500, 392801053182284126280500, 392921191811720238269600, 393011053182284126280500,
  393020897367822321625600, 393090836276914089328100, 393210828053104265631000, 393400509483108002700800, 393470908490385832647900,
  394721191811720238269600, 394791122497002182275000, 395320509483108002700800, 395360908490385832647900, 395781122497002182275000,
  396360662985017168816000, 396400785767419183627600, 397170997220705332738300, 397391191811720238269600, 397700745220908372811100,
  397910641278566645033300, 398820935316784492115800, 400600745220908372811100, 400650641278566645033300, 401040935316784492115800,
  401651081950491371458500, 401790902774544448653000, 401800997220705332738300, 402320908490385832647900, 402511191811720238269600,
  402550997220705332738300, 402850719961833108760100, 403000855082137239622100, 403671030867928994859500, 403720897367822321625600,
  404410779098281733760400, 404421191811720238269600, 404791081950491371458500, 404810943321055259469600, 404830997220705332738300,
  404930908490385832647900, 405090997220705332738300, 405111191811720238269600, 405170719961833108760100, 405270855082137239622100,
  405480897367822321625600, 405571191811720238269600, 405600779098281733760400, 405651191811720238269600, 405721012635773315464000,
  405730736424031078215400, 405750737482242011269100, 406071053182284126280500, 406130961553210938865000, 406140961553210938865000,
  406350972089262504647600, 406430774372993248705800, 406440774372993248705800, 406570902774544448653000, 406600869924137751449500,
  406640869924137751449500, 406700892238492882870400, 406800787506593454814600, 407180792913315581842150, 407230972089262504647600,
  407361191811720238269600, 407790842160964091621400, 407860983867566070286000, 408310983867566070286000, 408450508400846356885700,
  408570508400846356885700, 408601081950491371458500, 408631081950491371458500]

def emitE33_0 : List Nat := [
  200510563460161557587700, 207990857904059474231700, 208180857904059474231700, 209080663313044568700400, 210680719274623362242700,
  214850696960268230821700, 215010477237810497199800, 215430678728112551426200, 215530420959274227529600, 215680428858115359392700,
  215900696960268230821700, 215910649959905306248100, 216170459005654817804300, 216530357509428879685840, 216580290571732757082520,
  216740678728112551426200, 216790367376581630388800, 217030368869146652056400, 217040212227093917015440, 217140453598932690776700,
  217350322718246126625100, 217360558330832118832600, 217640649959905306248100, 217800748042830607420800, 217990430237447572626200,
  218150857904059474231700, 218280788589341418237200, 218620266824395070179050, 218630479485096082405600, 218660409040422501017800,
  218790472889299303225900, 218860563460161557587700, 218910285872881813490580, 218950678728112551426200, 219390389690936761809800,
  219700424830725445598700, 219740466701758931417100, 219850315409057726091470, 219880638181601740609850, 220070470783958383442700,
  220300422233176805272600, 220380479485096082405600, 220470366638570900626570, 220640477237810497199800, 220790306561184857733560,
  221000442015751138264600, 221080402516370314177700, 221120453598932690776700, 221590857904059474231700, 221630358182832097820250,
  221650402516370314177700, 221820696960268230821700, 240520663313044568700400, 244030357509428879685840, 246140368120079479140600,
  252890609413394495431700, 277530464721496201799140, 278010649959905306248100, 278130601409123728078000, 281210524683608456711300,
  283160678728112551426200, 285380696960268230821700, 287010601409123728078000, 300700357509428879685840, 315720548799814138400150,
  368900294425099157306800, 370700857904059474231700, 378480696960268230821700, 381970696960268230821700, 385340270410986389028700,
  386460514505339025717100, 391000553451815701889400, 391250553451815701889400]

def emitE34_0 : List Nat := [
  200430656551586943006700, 201020202620308157842700, 201100145710044245524500, 201740419462779804300800, 205110495263561280499400,
  213350725866304999001200, 214500743411172749620500, 215160545547488493833500, 235450380776367770699300, 235650380776367770699300,
  244030555915331441317700, 244780419462779804300800, 251710712945131851000600, 254540212550501256454700, 258180212550501256454700,
  260440145710044245524500, 278390964512962696476000, 290310269779312289850100, 300010652607413737877100, 300700555915331441317700,
  305280200128741693142140, 332580993281169941654200, 332670652607413737877100, 338790200128741693142140, 368070136902122262352170,
  369420136902122262352170]

def emitE35_0 : List Nat := [
  199950778691165308256000, 200100433164705015013000, 201370480460239986071100, 201770630530711215834600, 201960709376447252261600,
  202210596236236103151500, 202390688404394154054600, 204910433164705015013000, 207990460608389585188950, 208030153796654225591920,
  208110370711687187519120, 208180460608389585188950, 208570606414505534145750, 209980522196229562102400, 210150310478042595834100,
  213190605231059769445400, 213450620450241303638000, 214000666632045769567600, 214740778691165308256000, 214770577646298288967600,
  214960369367881971315050, 215440662376084327688000, 221080793001249672323400, 221360662376084327688000, 221650793001249672323400,
  223200723686531616328900, 223300778691165308256000, 225210749922958063078000, 225800778691165308256000, 227680685737569445838500,
  227880980181467362482600, 228250338100574461873600, 229821049496185418477100, 233760496157236545725060, 234330772237313194498900,
  234780541978803895094400, 235440727608602931657000, 236100610051269951233200, 236180479786836767936600, 236520479786836767936600,
  236811049496185418477100, 238330630530711215834600, 240520854905170512945700, 241800441502865908918100, 242300793001249672323400,
  243431049496185418477100, 250961049496185418477100, 251420785590452456951200, 251430785590452456951200, 252851049496185418477100,
  252890458145884854650100, 258121049496185418477100, 259910650597780762049600, 260200460055901991992040, 260410410640044863914100,
  260850755052287501833100, 261020608824260692051760, 261260939634956551666200, 261780608824260692051760, 264210709376447252261600,
  264790980181467362482600, 266090829773727684855100, 266790888552394175067100, 266840691144291572866100, 271710888552394175067100,
  274250643451884363835200, 274930543871604883646300, 275061049496185418477100, 276040829773727684855100, 288571049496185418477100,
  293050547108133333849440, 297481049496185418477100, 299260531881212161094200, 300450480460239986071100, 311810301509772301974440,
  311860645191058635022100, 312780301509772301974440, 317510693961379269535700, 318590153964277242082060, 320680719912498818044200,
  324520719912498818044200, 328190590999437551419900, 328820685737569445838500, 330670841552031250493500, 330730841552031250493500,
  335860606414505534145750, 343890980181467362482600, 350410168973665155246460, 359970605231059769445400, 361250605231059769445400,
  362030593061366271693500, 370700854905170512945700, 373240168973665155246460, 373250888552394175067100, 373290910866749306488000,
  376660537696804176801550, 377700493044144686207700, 379120456006765856518300, 380470456006765856518300, 380650537696804176801550,
  382250493044144686207700, 384530494978440970520900, 384990494978440970520900, 389150474238921535913800, 389310527460602910644650,
  390310474238921535913800, 390390527460602910644650, 406701049496185418477100]

def emitE36_0 : List Nat := [
  203010000000000000000000]

def emitE38_0 : List Nat := [
  199680408538070216317500, 199770747981282675027000, 199790731854467915414800, 199941001123949217316200, 200100264380151917806500,
  200130347421668649735340, 200260868378563107620700, 200300719668657083435000, 200370695052236852976000, 200400219026103860637230,
  200650903398806050932100, 200700615987682348493700, 201070575017056997077600, 201080713848228097798100, 201230271449697978504730,
  201370852963495124894800, 201540370147707024745330, 201820381502815260061000, 202040173469212720727750, 202210952353628582802600,
  202490738864343961197700, 202500725666927543606000, 203010587950739787944250, 203090364349347148753070, 203130543211998338501450,
  203941287344037310263200, 204491079399883142279600, 204570686831949954716400, 204860686831949954716400, 204910264380151917806500,
  204970173469212720727750, 205050648487896755700200, 207571287344037310263200, 207990464713438508712300, 208180464713438508712300,
  208260813724192470813500, 208390937693281163615200, 208441067621579576641200, 208690937693281163615200, 209601023438304348737300,
  209990445938794060590700, 210020841909307684912500, 210211034771172879437600, 210510636616266071762000, 210950867623842544082400,
  211270867623842544082400, 213060727687198275358000, 213120727687198275358000, 213451195714964122847600, 213671038853372331463200,
  213780924909944012626700, 214390724761943991614300, 214520769446976418716100, 214881007007999219609800, 215311287344037310263200,
  216080721395815734301050, 216971195714964122847600, 218610778276237133283900, 222350924909944012626700, 222420892219665452120500,
  222531195714964122847600, 222690472803576343517500, 222830472803576343517500, 222901195714964122847600, 222960892219665452120500,
  223200500614332025202500, 223300784627577705516500, 223590673032827638551000, 224110857615496688384100, 224780853614963227014200,
  224961246797526499446600, 225770575340028614116100, 225800784627577705516500, 226020673032827638551000, 227880609068158429517900,
  228101016539017200042100, 228210738864343961197700, 228250489701668182545700, 228701079399883142279600, 228710975992506389225800,
  229140819594952553491400, 229520992900139393619200, 229710924909944012626700, 233760768326516517429800, 233950943945316861748500,
  234270624473783987422150, 234780397268690896628000, 235461057085528010858500, 235690471793466744867100, 236160823871138487299600,
  236220705930984127756500, 236260705930984127756500, 240300747076299123035300, 240490293094847697327370, 240500901271066206203600,
  240660725303950738548100, 240721218029319254268600, 241071218029319254268600, 241330926252246045840800, 241800508419286778903500,
  241901023438304348737300, 241961092753022404731800, 242150933248104906531700, 242880924909944012626700, 243350876256650892932000,
  243520928992143464652100, 243730928992143464652100, 243751162067740460726400, 243781162067740460726400, 244410945571368948926500,
  245150827328272893808500, 245171073337420960636000, 247730969538654275468700, 251050653484629489944900, 251121007007999219609800,
  251361007007999219609800, 251420863211362053188600, 251430863211362053188600, 251520891262720350505300, 252530575340028614116100,
  259031067621579576641200, 259910697628650546589100, 260410638804206989887700, 260630712564101302965600, 260850577176440148318800,
  261020405629074835922500, 261590670487621318184700, 261780405629074835922500, 262020886610718787016000, 263600615987682348493700,
  263611356658755366257700, 263710725666927543606000, 263760664394366218669000, 263990703279871572923400, 264111218029319254268600,
  264120792823288432883100, 264260844859374124582100, 264490773470507637906000, 264650884808868236748200, 265760838480400337049200,
  266350942345282727104400, 266390917213839899013900, 266570751921537461629900, 266661136936297632635700, 266790297632306757434730,
  266960722799347545939400, 267420755043039396422300, 267810884808868236748200, 268470942345282727104400, 269891001123949217316200,
  270041030849101564109600, 271551030849101564109600, 271710297632306757434730, 272310844859374124582100, 273960917213839899013900,
  274250391483594680476100, 274540931809231161321900, 274920427826814036980500, 275730783973980607538000, 278610784955985225635500,
  279660819594952553491400, 279690886610718787016000, 282070891262720350505300, 288580868378563107620700, 289821052206511593915500,
  292380788641494464551000, 292550883919973495023600, 292561001123949217316200, 292890806941932836937600, 295181079399883142279600,
  296771079399883142279600, 297020961534383508115000, 299421057085528010858500, 299830928992143464652100, 299920869905310320699400,
  300280730318929107095300, 300450852963495124894800, 301490761075018419774600, 303400438094979432676600, 304181195714964122847600,
  304650626949654850215900, 305280787961219732275700, 307191007007999219609800, 310141007007999219609800, 310380963476192093825100,
  311810288043209462809150, 311850767494334183680600, 311860833547893680799000, 312780288043209462809150, 314490898162007499200500,
  314560686831949954716400, 315080696671705444974000, 315580696671705444974000, 315610682252836735123000, 316871019929172367610300,
  318670527353841389413300, 319950992900139393619200, 320260623815020076741500, 320680911224025740907000, 322910724761943991614300,
  324230623815020076741500, 324520911224025740907000, 326261246797526499446600, 327690780768577978529600, 327730470736616005444600,
  329290576478715175360450, 332580572942790366090200, 332890719668657083435000, 333240676530451919095600, 333940811126643830487600,
  336471052206511593915500, 336741092753022404731800, 338790787961219732275700, 342771052206511593915500, 343890609068158429517900,
  348920646491158204313350, 349201177482808443452100, 349300947224299144047600, 350410337035576308240300, 352111047554510030426100,
  352651047554510030426100, 353280827832052296804100, 354410591499197980497600, 358050591499197980497600, 363350747527767158487850,
  365230462060342883467900, 365540737422506418770500, 366490826827018711454000, 366500742025829599368000, 367100737422506418770500,
  367180742025829599368000, 367440826827018711454000, 367930605670449250766300, 369130721395815734301050, 370020605670449250766300,
  370091246797526499446600, 370960645344544495548900, 371290903398806050932100, 373240337035576308240300, 378060837920174782182200,
  382150837920174782182200, 382630786614398027189000, 382710786614398027189000, 382720864660662783445100, 382910742670300143632200,
  383760864660662783445100, 383880742670300143632200, 384310866874775371166500, 384980818669020012211700, 385380866874775371166500,
  386170769446976418716100, 389170552678520992609300, 390060527353841389413300, 390330552678520992609300, 390801043109333773342800,
  391181043109333773342800, 391841108168090387457700, 391920543211998338501450, 392080902329277139257300, 393020902329277139257300,
  401801177482808443452100, 404831177482808443452100, 406360219026103860637230, 406800813724192470813500]

def emitE40_0 : List Nat := [
  201540011261887810814913, 202040223952695702690900, 204970223952695702690900]

def emitE41_0 : List Nat := [
  203010000000000000000000]

def emitE42_0 : List Nat := [
  199780163762902521784470, 199790332224600635121600, 199960746727826651894000, 200130222652663657451100, 203910864593326286058600,
  205960864593326286058600, 207990959039487170143800, 208180959039487170143800, 208390218724672946874540, 208690218724672946874540,
  210690429386481572749600, 212710337222170711474960, 213060426773338533533100, 213120426773338533533100, 213350399727796493275600,
  213810837930459960663800, 214750409880423315611200, 214880939623885726048000, 215180571325912527373200, 222690835825119040880400,
  222830835825119040880400, 223200337492999755926400, 223300438992661961201800, 223590582587800338188100, 224780738526511485810500,
  225301015001065963686000, 225800438992661961201800, 226020582587800338188100, 226590529408175530158500, 227210642130971133625200,
  227880399887498417024200, 228060261973186488829700, 228360462755024144153000, 237360433476135089107200, 242130602086217522006700,
  242370959039487170143800, 243070837930459960663800, 244600571325912527373200, 245150634057424298381540, 254900718602708439744900,
  260410326667615519640500, 260490545637182566116100, 264810746727826651894000, 278390636582102571859900, 280230642733382593963300,
  282860918492976359327300, 283920992686710832265000, 286570992686710832265000, 287710918492976359327300, 296150859186604159031000,
  298720859186604159031000, 300361062001428888259500, 300860625564258944743500, 313540483742063380210500, 314710876371629851697000,
  322180544273525071161500, 322271153630502075675100, 324470544273525071161500, 325361153630502075675100, 327640886215637133022200,
  336181043769273208864000, 343890399887498417024200, 349030739317029436521800, 350410211024861329515500, 351990873294463985021500,
  352820818640093348214600, 362150314717249940803100, 367930341988794796254600, 368840876371629851697000, 369470933908044342053100,
  370020341988794796254600, 370660530976835146928500, 370961062001428888259500, 373240211024861329515500, 382720882825481965454100,
  382910564190218649190000, 383760882825481965454100, 383880564190218649190000, 384700567980145908288600, 384980738526511485810500,
  385140859186604159031000, 385200567980145908288600, 389141003222762398047700, 389570462755024144153000, 390031113083991264858600,
  390301003222762398047700, 390721113083991264858600, 405950952140200021448600]

def emitE43_0 : List Nat := [
  199680527380658183964000, 199710896545996283630000, 199770602884881229010700, 199780442690452593019400, 199790523842874275798800,
  199851185583172073246600, 199900695302913143942550, 200100751202629887878200, 200130663727932265329200, 200370734131590301250550,
  200430955324662773842100, 200480826309612717143200, 200610811025692294198400, 201020789819820405226700, 201080554773327922293550,
  201160560392783756657750, 201700376206396280138570, 201950282449840458240800, 202210758380598127291300, 202390896545996283630000,
  203131038949465193903900, 203580299684713121741540, 204910751202629887878200, 205050900320029081914800, 205510788553980718034400,
  207990597529873433176600, 208030772869733568737400, 208080776148715851036550, 208090867777789038452000, 208180597529873433176600,
  208201185583172073246600, 208390582514646047120300, 208430801280158679127100, 208450689065880071296700, 208510830048365924305300,
  208690582514646047120300, 209080709937208719814800, 209370995871173584658500, 209980847710719492237000, 210210423479988989521800,
  210511024639380829836600, 210690222279772964862540, 212700817532051628904600, 213130863695589586426500, 213200406541143752583340,
  213220879556092604090400, 213820655252681267339000, 214350366160241591264900, 214760666844591489171100, 214940562929505144500000,
  215180350887342497503600, 215510732682289570993800, 216080380842884798095050, 217760570451847268258750, 218300986340155604225900,
  218550732682289570993800, 222350610750086981519600, 222380802719032424337000, 222690650081901050788400, 222830650081901050788400,
  223120294089202200213860, 227990726071187059787600, 228050772333539254598900, 228060931685784967419000, 228120497613303953285400,
  228250286364735855945400, 233760848853589074599100, 233950455648490590803600, 234350505603291658897600, 234770977639017905263000,
  234931295444400940057500, 235060945793644793409500, 236140906262371128994800, 236810962223949922537000, 241200697302979814609500,
  241800205563275770226860, 241980569321891742865500, 242130427105864312026700, 242301006407225150441100, 244480566415112695397800,
  244600350887342497503600, 245030704364736536004800, 246870965860714339624600, 249500569321891742865500, 251650467728623696876600,
  253081134500609696647500, 259910804916923096214600, 260850258039048576253600, 260860747798045746906500, 260890605371334535540300,
  260920533178005807698100, 261020314873467978315200, 261260669486254533565300, 261270628876029161816700, 261320853560340160397700,
  261490697302979814609500, 261780314873467978315200, 261850574658413796810000, 261870574658413796810000, 261880845463433907031000,
  261950866398456825218400, 262020484974054102946700, 262160540115740380015600, 262570917025437548231400, 262861024639380829836600,
  263130866398456825218400, 263560699860663993574500, 263760361404075312622400, 263881185583172073246600, 263950891139274156602600,
  263970407845811807460500, 263990353806555401312200, 264110453398200694411000, 264690299684713121741540, 267221001000503023413500,
  269700945793644793409500, 269841001000503023413500, 271380826309612717143200, 274250627484482355619300, 274911018185528716079300,
  274940756994894661148600, 275060962223949922537000, 275110655252681267339000, 275730680384124095429600, 277210474649706835195900,
  278350646220417438010400, 280920995871173584658500, 281450839009581793273900, 281650610220144034869700, 283851038949465193903900,
  284151038949465193903900, 284500474649706835195900, 288571087500246772073900, 290810965860714339624600, 292751185583172073246600,
  293991185583172073246600, 294821185583172073246600, 294921134500609696647500, 299830801280158679127100, 300580799861695179931500,
  305240986340155604225900, 306360840056711780003500, 311790656252689600797400, 311811006407225150441100, 312060629003498905016740,
  312781006407225150441100, 316800529527264173451800, 320000515428093900761600, 320660730546977123937000, 321130881130928300904300,
  322101226129682884063000, 324260515428093900761600, 324560730546977123937000, 324790881130928300904300, 324901226129682884063000,
  326501226129682884063000, 332670758380598127291300, 332780770217058135394600, 334100529527264173451800, 338650562929505144500000,
  345031185583172073246600, 345440990992157167715200, 345671295444400940057500, 347560990992157167715200, 350410588032719320321300,
  354770769694863737279360, 358060769694863737279360, 359481185583172073246600, 362081226129682884063000, 362130850009671314706800,
  362490850009671314706800, 368170476909378622188900, 369130380842884798095050, 370270749912289404287400, 372761185583172073246600,
  373240588032719320321300, 373290811025692294198400, 382910487296896926352400, 383640830048365924305300, 383880487296896926352400,
  384510740536792450535600, 384771006407225150441100, 384800889400099885415700, 385250740536792450535600, 385340711963327233797000,
  386221185583172073246600, 386320945793644793409500, 386700981894979347142500, 387060912580261291148000, 387420675799988160605500,
  389180926556455528664000, 390340926556455528664000, 391921038949465193903900, 393180973556818453237400, 393401156814964828068400,
  395321156814964828068400, 397590617225195339378450, 404811185583172073246600, 406701087500246772073900, 407361185583172073246600,
  407780689532081381877850, 407840689532081381877850, 408451185583172073246600, 408571185583172073246600]

def emitE45_0 : List Nat := [
  201020465576346373165400, 201131073798237410810000, 208390308591162799161800, 208690308591162799161800, 215420497908060023081900,
  217050894622290488004500, 223200388257357549817250, 228060676769046055597800, 240500854075779677188200, 266790118072450764916570,
  271710118072450764916570, 274900376163430366035150, 276681004483519354815400, 276831004483519354815400, 299780834008710130972900,
  303400227672481502216600, 304750228075152386454550, 305280730399516962295350, 315610261561113070154730, 333240673064918887562950,
  338790730399516962295350, 352110809892504449284100, 352650809892504449284100, 353280266582706591985000, 354410267902235633868300,
  354980181146486425797780, 355420564423217330133700, 357700564423217330133700, 358050267902235633868300, 358280181146486425797780,
  386421073798237410810000]

def emitE52_0 : List Nat := [
  199680841767566227876400, 199691212654626287126500, 199780569193800997261000, 199790555782033329210550, 199820648368492834768500,
  199851112196292385143300, 199881191890689809302200, 199900724724697083609700, 199940612237433605620600, 199961172108115476310200,
  199970987931126496038600, 200051090730598641454200, 200060731530043408111300, 200071004230854892793600, 200130623447715195263500,
  200161089600643116060800, 200181119498805886632200, 200200665556925044101200, 200251044300037828344300, 200260379990843317608700,
  200270600751761127174000, 200291377520488845864800, 200300738731597789465100, 200351102793397420315600, 200371274558547127749000,
  200400865840939853400100, 200410733681344343490700, 200430960389928510041800, 200460795928491386559700, 200470733139164734365100,
  200480917806687416782000, 200541185828227627658600, 200560991658265975761700, 200621188813523942626700, 200640676074999081745400,
  200650845904760378228000, 200700756621252882209200, 200731220658897054480200, 200800689873389951627750, 200810777033065444074800,
  200831049429367267099300, 200980777033065444074800, 201020684392841443516500, 201040691035711048778700, 201050880678144317170100,
  201070612095125341957050, 201100412080709775274400, 201110885376517316686300, 201131004710472119143000, 201141005676663210316800,
  201171038743052712863200, 201201052483039653107600, 201211052483039653107600, 201290683595094241713900, 201301359288333166469300,
  201320656291041995830700, 201350641892501190789900, 201390851770951643086600, 201400869380052347418400, 201420823237394486020900,
  201460875395941525037600, 201491180112386243663800, 201540722727235970597400, 201611026067882148948800, 201670904958854939469000,
  201701343873265183743500, 201710957051226906768100, 201731112196292385143300, 201740694411469441199600, 201790755461471835890800,
  201811129029823867064800, 201821167107073418844000, 201830857560349484977000, 201840679345592956818400, 201851212654626287126500,
  201950724783193721721200, 201960768933966592918150, 201970462910441554538000, 202021201734697090627400, 202080894369626025982700,
  202141255142945683653200, 202150651215561861471000, 202190610030874900823900, 202211399834843977285800, 202230880400366360780000,
  202370953244032111827400, 202390761484180488885200, 202400878069897629227500, 202410834673683744556500, 202470923831354322385100,
  202481119498805886632200, 202490851044430543945300, 202500548727392936479700, 202541082029460942491100, 202560736470111321538400,
  202600714584163502119900, 202621281969344343121000, 202631308205770789870200, 202661100261616621886600, 202720828296682927330400,
  202760902680053438464800, 202800809639839987262500, 202821155600140440365400, 202840698961724345071800, 202911020849306831892000,
  203010706176277912284340, 203020664654857071508100, 203030580204945501451400, 203040977151469450467800, 203050948474544731025700,
  203070912889275913938100, 203080774982212314720500, 203090954109838386138900, 203130886402167333405300, 203141035420487950031200,
  203150934200996721036600, 203160568781048216602800, 203230957950783197626000, 203290979739414249249800, 203351469149562033280400,
  203391100261616621886600, 203510676597664054587700, 203551084134801862274400, 203580385319003130863600, 203630976787170322617700,
  203650902680053438464800, 203790599173090336740350, 203810939568138400288400, 203901399834843977285800, 203911216576697602454800,
  203981046466187506462300, 204050825534525196337500, 204150893575340674589000, 204190855593072925106300, 204311359288333166469300,
  204391063105260978638400, 204400918819867309822800, 204450752253058923000000, 204490649809538838070500, 204620780394304866818500,
  204890755461471835890800, 204980751485889836260200, 205050749743421507881600, 205061195065559640760200, 205110923404003244646900,
  205130870128185512647300, 205181075966998760847700, 205231281969344343121000, 205251208880593488842000, 205380837704218694089400,
  205400667682924986786100, 205510845219490932023900, 205581110797668187669300, 205591267659259979053800, 205700739677870480706100,
  205720729179177335436450, 205811032204776786578100, 205961216576697602454800, 205971399834843977285800, 205981060551930778121800,
  206031119498805886632200, 206051100261616621886600, 206070822147041004610600, 206211208880593488842000, 206301308205770789870200,
  206321082029460942491100, 206330577848369786020650, 206480909122352204626700, 206530957950783197626000, 206581234012036316932500,
  206590736470111321538400, 206610837704218694089400, 206630714584163502119900, 206671182929473940333400, 206741119498805886632200,
  206870694131145807496600, 207211066614392959765400, 207251182929473940333400, 207290651215561861471000, 207361201734697090627400,
  207670822147041004610600, 207781119498805886632200, 207860909122352204626700, 207990906928479937041300, 208001040103617918441000,
  208011059715105811070200, 208030966105769894036600, 208050723302115392299900, 208071071181396643084200, 208080824418975779159000,
  208090775758538387381400, 208110878749709900609600, 208120952101162529465100, 208130693465835916996000, 208170952101162529465100,
  208180906928479937041300, 208201359288333166469300, 208260969766744455292900, 208281538464280089274700, 208370454322044842459300,
  208391234012036316932500, 208400814830345813840400, 208441101519494842572700, 208490954400114351934900, 208510598707625278915600,
  208520810532396547812800, 208530710291881048135700, 208550828626716230196000, 208561180112386243663800, 208590685059249241008800,
  208601188813523942626700, 208611308205770789870200, 208641135929111015760000, 208691234012036316932500, 208740797853941965573300,
  208760797853941965573300, 208820900282678348665000, 208851055632906359044700, 208890727121616094909300, 208910750724561453946100,
  208921015889612717954700, 208961141435088734062700, 209001016428697581442400, 209011538464280089274700, 209080935395754063148600,
  209120991658265975761700, 209140877799261469453300, 209150624913373953956900, 209181155600140440365400, 209191058062175615949100,
  209230908569355403680500, 209280954109838386138900, 209340670159624538986300, 209371008133789283367300, 209401093029550463924000,
  209410908569355403680500, 209430752754893599025500, 209451106715468735643700, 209571298674752809437800, 209611137730961566027700,
  209730990817924896123800, 209751318741822355652900, 209771318741822355652900, 209821071181396643084200, 209860409466090723406300,
  209870610524289298507000, 209891132419979034632900, 209910939317825378476600, 209920982781473919321000, 209931289973615110474700,
  209951538464280089274700, 209980707349025289105800, 209990944184342576604700, 210020939568138400288400, 210051164697318260938000,
  210061090730598641454200, 210090859005622001625000, 210100806081223469043100, 210150730224054696650350, 210171048680300094183700,
  210190797490084681182500, 210211160045316697448700, 210241229360034753443300, 210280760852732379400500, 210290740052084218982100,
  210330765622702105170600, 210341229360034753443300, 210350740052084218982100, 210381069329491866360400, 210400389712745585973400,
  210460522090860909090800, 210470886108049474323600, 210491399834843977285800, 210500850425871870674200, 210510943660781171210200,
  210581085204330773949300, 210631048680300094183700, 210660823708352970329500, 210690677395926638917200, 210701399834843977285800,
  210731049429367267099300, 210761079967532222217700, 210781009637577019821300, 210851082029460942491100, 210931082029460942491100,
  210950826339034764820600, 210970771002530352838500, 210981074025190175137500, 211031075966998760847700, 211060783188071667860100,
  211090797490084681182500, 211190927096062106051700, 211230806081223469043100, 211270826339034764820600, 211281289973615110474700,
  211331049429367267099300, 211371085204330773949300, 211470718380554251289900, 211490980114649211105000, 211500671730695104679100,
  211510869753419302623400, 211520518740412987845700, 211531377520488845864800, 211551399834843977285800, 211600512803662062066500,
  211610645560489440430700, 211630852712873834735800, 211690740086173191529700, 211700899944840189502300, 211710942106345727430200,
  211820946844073828531300, 211830833278717793685400, 211850899944840189502300, 211911330520125921291300, 211931153449519918269000,
  211951428603051222463800, 212021073068245073522500, 212050512803662062066500, 212081008632543434471200, 212091377520488845864800,
  212130752677524156094500, 212140942106345727430200, 212150920255789417611700, 212180833278717793685400, 212201078952295075815800,
  212351428603051222463800, 212370740086173191529700, 212400980114649211105000, 212421359288333166469300, 212431153449519918269000,
  212471143339908231132000, 212481153449519918269000, 212530880956696029312700, 212641060551930778121800, 212700505018484984009400,
  212711121025553099711100, 212901085204330773949300, 212950935877682706743400, 213061042179817063284000, 213070951252501141733300,
  213110980114649211105000, 213121042179817063284000, 213131116513509571664100, 213151234012036316932500, 213190546616811854837200,
  213220944184342576604700, 213260818645922379080600, 213270932318588196473100, 213301330520125921291300, 213320932318588196473100,
  213330961632180509897500, 213340687065474042545900, 213380948474544731025700, 213400995969278341134500, 213440774982212314720500,
  213451044300037828344300, 213500993790542922643800, 213510990817924896123800, 213550785846388754660200, 213591201734697090627400,
  213600847588802157752700, 213611029089260008598600, 213631007637510349154300, 213640877394675617499000, 213650883785739013222500,
  213670956159690540973000, 213680980114649211105000, 213691079967532222217700, 213701261205407865296700, 213710877394675617499000,
  213780946038700347821600, 213820767175183940261800, 213870722441030852506000, 213880940070652020555800, 213971538464280089274700,
  214021132419979034632900, 214070870630068623841600, 214131000014773810365800, 214161201734697090627400, 214210940070652020555800,
  214350509619901687999600, 214391318741822355652900, 214490906028383851143600, 214500627081332929740900, 214511078952295075815800,
  214521169576334677881100, 214530704945121745954500, 214570523433423368805300, 214620564715080255180200, 214630577177496479574350,
  214640584528649297180700, 214651074991381266311300, 214670925995940999854400, 214720892317462453903000, 214750776295780216813700,
  214760989984586740209200, 214771205243829071754500, 214800995969278341134500, 214811289973615110474700, 214830732315593402142200]

def emitE52_1 : List Nat := [
  214840870881957925790000, 214870647446202287945900, 214880723071766888488600, 214891318741822355652900, 214901141435088734062700,
  214911244020382172630700, 214950927317546139007000, 214961024884436384248700, 214970803927796047587900, 215050897446791892658200,
  215070859117666831274000, 215120513792021678459000, 215131318741822355652900, 215140959162919250860400, 215160705957910726155100,
  215170603575861946850600, 215180815770678239946000, 215200865243209442554200, 215210620837640925031700, 215221220658897054480200,
  215230972516058513312700, 215270988747457559954600, 215311085204330773949300, 215331205243829071754500, 215341010652814166223100,
  215350873695442732941900, 215361289973615110474700, 215420631632692894598300, 215470738429330556806500, 215480734774602820767900,
  215491343873265183743500, 215501122575971753307700, 215510871514471103486900, 215571030946898565892000, 215600791612952939641100,
  215610956753164092954300, 215631026664898847599300, 215641102793397420315600, 215661038069649494728900, 215740997747102943263000,
  215761086285422384370800, 215780730595457166287500, 215891220658897054480200, 215920835644136883474400, 215951212654626287126500,
  216081428603051222463800, 216171298674752809437800, 216190935395754063148600, 216280761568675635441600, 216290692741195064919300,
  216440741286667801212000, 216461077947261490465700, 216471180112386243663800, 216480746093246692351100, 216500968754931438734300,
  216531034769019847912000, 216591096580219309615000, 216681220658897054480200, 216761083076590929220700, 216831117995018150178200,
  216881343873265183743500, 216930873825228604501800, 216961112196292385143300, 216971047936802245431800, 217001072120370678068100,
  217041308205770789870200, 217090877934487994454600, 217111359288333166469300, 217131238891052733875700, 217141289973615110474700,
  217191035420487950031200, 217251000014773810365800, 217290835644136883474400, 217341174705664116636200, 217361069329491866360400,
  217410827068669132671300, 217421024884436384248700, 217541255142945683653200, 217561042179817063284000, 217611160045316697448700,
  217661067511259958041400, 217921399834843977285800, 217960847090545023306300, 217991229360034753443300, 218041002805652622073600,
  218060688439233020682300, 218090842145281502251000, 218300725842027143422300, 218390681561646083649300, 218451249427104299658400,
  218541238891052733875700, 218550871514471103486900, 218691343873265183743500, 218701343873265183743500, 218800994656349196955200,
  218831185828227627658600, 218901229360034753443300, 218911238891052733875700, 218920640850692759020000, 218971289973615110474700,
  218980828296682927330400, 219031212654626287126500, 219121167107073418844000, 219140847090545023306300, 219160825855552759362300,
  219170892473834651521300, 219271298674752809437800, 219301004230854892793600, 219340961632180509897500, 219431005676663210316800,
  219471055632906359044700, 219581212654626287126500, 219660988747457559954600, 219691330520125921291300, 219721224914858496359700,
  219811229360034753443300, 219831469149562033280400, 219871249427104299658400, 219900959774541952604000, 220130867900370603274500,
  220220803927796047587900, 220361220658897054480200, 220390949576484255986700, 220401042179817063284000, 220571035420487950031200,
  220621399834843977285800, 220630994656349196955200, 220650971131953372125500, 220661074025190175137500, 220680856681222943859800,
  220941172108115476310200, 220991042179817063284000, 221081169576334677881100, 221121289973615110474700, 221171000014773810365800,
  221201132419979034632900, 221221031573859867251600, 221240998196541902046900, 221321005676663210316800, 221441096580219309615000,
  221491083076590929220700, 221510972516058513312700, 221581174705664116636200, 221591116513509571664100, 221651169576334677881100,
  221791080993182238936600, 221961090730598641454200, 221990959162919250860400, 222040983946535641318600, 222081343873265183743500,
  222101080993182238936600, 222181289973615110474700, 222250971131953372125500, 222271343873265183743500, 222281091873468223816300,
  222341162344268519918500, 222380633271216566420700, 222401255142945683653200, 222420995529717193830700, 222531185828227627658600,
  222560934916136836799300, 222600784295970101063700, 222660780700896829002000, 222690700763164007637300, 222700726882309968142200,
  222781032839699554444000, 222801208880593488842000, 222830700763164007637300, 222850784295970101063700, 222901185828227627658600,
  222911032839699554444000, 222940726882309968142200, 222960995529717193830700, 223030816426896416879800, 223071056436123528771100,
  223120517400148571524450, 223200725017523061518500, 223300773019957442263550, 223361023714832407929400, 223491330520125921291300,
  223510709084319204593000, 223520822535089609518300, 223531110797668187669300, 223591155600140440365400, 223621261205407865296700,
  223631538464280089274700, 223651188813523942626700, 223671169576334677881100, 223681099019364622030900, 223690979739414249249800,
  223831399834843977285800, 224020946574894661960200, 224110861614958924411800, 224181137730961566027700, 224271538464280089274700,
  224341343873265183743500, 224380935395754063148600, 224431359288333166469300, 224460999101525454038600, 224751007637510349154300,
  224780799137970612891000, 225190922766381530719200, 225211244020382172630700, 225220959468262999549500, 225301011164324232900200,
  225331261205407865296700, 225341010143907215476000, 225641075966998760847700, 225700879571632335922800, 225770677541752403001700,
  225800773019957442263550, 225810974273572995463500, 226021155600140440365400, 226040900282678348665000, 226091084134801862274400,
  226151182929473940333400, 226220832932995755299600, 226350962574102701546700, 226451085204330773949300, 226590943139946660496300,
  226661359288333166469300, 226741255142945683653200, 226750929333291881505000, 226811117995018150178200, 226841099019364622030900,
  226860683556342061418900, 226961030323843590828600, 227071169576334677881100, 227180935395754063148600, 227211071181396643084200,
  227271538464280089274700, 227371469149562033280400, 227390722441030852506000, 227441137730961566027700, 227500709084319204593000,
  227560982781473919321000, 227611188813523942626700, 227631132419979034632900, 227661043588291051458000, 227671043588291051458000,
  227680775807259460208800, 227711167107073418844000, 227741289973615110474700, 227781289973615110474700, 227811063105260978638400,
  227880738765239505509800, 227910577848369786020650, 227970604494222361085850, 227991172108115476310200, 228060776983743618167500,
  228100788632693012576700, 228120952957087869032000, 228150614028755032928800, 228160614028755032928800, 228180947655986272381800,
  228210851044430543945300, 228230567183160953332800, 228250833452028062368900, 228271044300037828344300, 228330694346709590042600,
  228360584033332251347100, 228391054045571443415600, 228401119498805886632200, 228420750119644675500800, 228551274558547127749000,
  228561469149562033280400, 228570816719936919621500, 228590779076495628763000, 228630811016324211887800, 228651255142945683653200,
  228680833019314275980700, 228700863588325340106900, 228711079967532222217700, 228801053261253697313100, 228900750119644675500800,
  228940779076495628763000, 229021063971067252949800, 229041010652814166223100, 229090639619676083034300, 229140602304163507598100,
  229180933727062184647000, 229251330520125921291300, 229300985918986176096400, 229311220658897054480200, 229410933727062184647000,
  229421399834843977285800, 229491249427104299658400, 229520838796131271621000, 229711109418335974435600, 229741249427104299658400,
  229870516233794697412750, 229951019725699505199200, 229961289973615110474700, 230141010652814166223100, 230351068416243510033100,
  230410956753164092954300, 230471099019364622030900, 230641174705664116636200, 230671185828227627658600, 230720947113979525447800,
  230811009637577019821300, 230891185828227627658600, 230941095382600204943400, 231001185828227627658600, 231101428603051222463800,
  231300728934902404810000, 231561255142945683653200, 231671308205770789870200, 231861106715468735643700, 231941080993182238936600,
  232301234012036316932500, 232330902506893222037100, 232411224914858496359700, 232440876723982291827000, 233081099019364622030900,
  233191318741822355652900, 233441255142945683653200, 233760848491969360787500, 233800969428334656868700, 233810857229770671526800,
  233830866925941455806600, 233840653828975757842100, 233891047936802245431800, 233951220658897054480200, 233961167107073418844000,
  233980729577401173075750, 234160729577401173075750, 234211071181396643084200, 234251428603051222463800, 234320708784693512269500,
  234330855701356638989600, 234360772358641853091800, 234451124150807450121500, 234471132419979034632900, 234480858224803756843700,
  234500482446460480728940, 234520784031069283906000, 234531147261979546460300, 234540688256324728655850, 234561066614392959765400,
  234570866683810586905600, 234580887885874076452000, 234601205243829071754500, 234611212654626287126500, 234661164697318260938000,
  234670901645561454225600, 234700901645561454225600, 234720971131953372125500, 234750667451787357054000, 234760977884073459675000,
  234780707398189498552400, 234810737163069052383250, 234850862654829646501800, 234861201734697090627400, 234870914827321068904300,
  234900964163961308326600, 234921090730598641454200, 234940916008437161738900, 235000928656851872650800, 235041212654626287126500,
  235060995529717193830700, 235071167107073418844000, 235171130710535698702800, 235190642430343440065800, 235211149282250278212200,
  235221130710535698702800, 235260688256324728655850, 235271428603051222463800, 235290866683810586905600, 235310727121616094909300,
  235320862654829646501800, 235411066614392959765400, 235421147261979546460300, 235441428603051222463800, 235450629342385982442800,
  235470918616408440044000, 235480717234566266298000, 235511063105260978638400, 235530752099153544409700, 235560627423326754161400,
  235581116513509571664100, 235591116513509571664100, 235620989158135755220000, 235630918616408440044000, 235650629342385982442800,
  235660717234566266298000, 235670753531898285218700, 235690634485353011160500, 235721377520488845864800, 235741091873468223816300,
  235761085204330773949300, 235780995529717193830700, 235810949576484255986700, 235881298674752809437800, 236010852293146041201800,
  236081054045571443415600, 236101377520488845864800, 236130815988939512477700, 236141010143907215476000, 236150928881823846052300]

def emitE52_2 : List Nat := [
  236161018614576962692200, 236171036076228004647000, 236181043588291051458000, 236210689894027656788100, 236221134159153305819800,
  236240889240296587227700, 236261134159153305819800, 236270986718990442804000, 236291054045571443415600, 236301102793397420315600,
  236311289973615110474700, 236331020285925060066200, 236370660508534500901940, 236460748883442380956500, 236521043588291051458000,
  236600748883442380956500, 236631182929473940333400, 236650786820949797711600, 236811151344178998485600, 237001224914858496359700,
  237030990817924896123800, 237211195065559640760200, 237251343873265183743500, 237360947384615685222000, 237690953820402583502300,
  237921255142945683653200, 238150943922219228617400, 238310990817924896123800, 238491047198791515669600, 238840959774541952604000,
  239941343873265183743500, 240331063971067252949800, 240341069329491866360400, 240370708138568003980800, 240381162344268519918500,
  240391308205770789870200, 240460854089285188652300, 240491180112386243663800, 240500898604786635754100, 240521040103617918441000,
  240651117995018150178200, 240660544097345872378800, 240670490994973860191750, 240691069329491866360400, 240701145281716816842300,
  240720869628808694598700, 240801143339908231132000, 240861216576697602454800, 240881308205770789870200, 240911244020382172630700,
  240921195065559640760200, 240930882928590908208300, 241011069329491866360400, 241020785201918210396000, 241070869628808694598700,
  241090803028047047127200, 241101064844435249825200, 241151143339908231132000, 241180785201918210396000, 241200968086032623654600,
  241251071181396643084200, 241490871260985543168200, 241591195065559640760200, 241631117995018150178200, 241711064844435249825200,
  241780896139583735922900, 241790812131318341591200, 241800886402167333405300, 241820731530043408111300, 241840955864269351229700,
  241850896139583735922900, 241871105390946060641600, 241881469149562033280400, 241891469149562033280400, 241910799384427915707200,
  241961201734697090627400, 241981021415880585459700, 241991085204330773949300, 242020799014969367371000, 242070992081099586713800,
  242081330520125921291300, 242111071181396643084200, 242120591780147394835950, 242130865243209442554200, 242151060551930778121800,
  242181377520488845864800, 242230950971207004071900, 242300885961314304928600, 242310930014338781757700, 242351071181396643084200,
  242370992932168553504700, 242481399834843977285800, 242571538464280089274700, 242651343873265183743500, 242821201734697090627400,
  242880946038700347821600, 242900950971207004071900, 242910799384427915707200, 243001330520125921291300, 243100823551120233534200,
  243140620661903039310800, 243200525653279116301100, 243220912315111657170500, 243230734162191559446600, 243240854945821474544600,
  243280913081398931727500, 243301067511259958041400, 243311185828227627658600, 243391137730961566027700, 243410717778637249309800,
  243520726494654793549800, 243581065725498218040800, 243651185828227627658600, 243670960081761856301000, 243690785792523954004200,
  243730726494654793549800, 243750593844010519458100, 243770681106927604040300, 243780593844010519458100, 243801298674752809437800,
  243920681106927604040300, 243980960081761856301000, 244020763747783437241350, 244030692190579527256900, 244050723014262574080600,
  244180809708216058302500, 244251040103617918441000, 244320986718990442804000, 244330881797037108950700, 244410812482319052956100,
  244430847788802224419400, 244480691307478750278650, 244490742886701935856100, 244521244020382172630700, 244530631230092707385600,
  244571229360034753443300, 244580902853514019685700, 244590982781473919321000, 244600815770678239946000, 244651244020382172630700,
  244661145281716816842300, 244691119498805886632200, 244710449390291754512100, 244731062246886609499300, 244780694411469441199600,
  244801119498805886632200, 244810765315077164706400, 244881108057770768857800, 244900873436375230532600, 244941029089260008598600,
  245010742886701935856100, 245031027265501253620500, 245050847788802224419400, 245150582413863659349000, 245180860472089342049500,
  245240966433102428533700, 245250861385337698376800, 245271399834843977285800, 245341027869732699216800, 245350982781473919321000,
  245360934200996721036600, 245370882786444473470600, 245440970447019187568000, 245481469149562033280400, 245510780649732847328200,
  245550713037403080256500, 245650773304722703514700, 245730987525446426477000, 245760900282678348665000, 245770854516636266390600,
  245940802708659998239500, 245961145281716816842300, 245970715246856450880750, 246040839346591377154000, 246050786278354869111900,
  246130989570507473606200, 246150943660781171210200, 246160852712873834735800, 246180759518823480607500, 246231220658897054480200,
  246291174705664116636200, 246351011678464182942000, 246361399834843977285800, 246431058062175615949100, 246461020285925060066200,
  246510874738476960829000, 246560938570623894606500, 246581020285925060066200, 246611014289578583310600, 246761079967532222217700,
  246771281969344343121000, 246800859005622001625000, 246810863940645140838500, 246851330520125921291300, 246870626916270994052600,
  246940901303095366089100, 247001029704646566036400, 247031044300037828344300, 247091116513509571664100, 247130703114570214730100,
  247240842809735774117800, 247261115053629629548800, 247350917806687416782000, 247361038743052712863200, 247391101519494842572700,
  247421116513509571664100, 247481070251157376852900, 247511026664898847599300, 247541399834843977285800, 247580938570623894606500,
  247601015889612717954700, 247641100261616621886600, 247730764093954271899500, 247780860585790320757100, 247791359288333166469300,
  247850849607034132738500, 247890892005449720278800, 247960766773666559436000, 247991399834843977285800, 248000988338459034802000,
  248010901303095366089100, 248070947655986272381800, 248091016970704328376300, 248111004710472119143000, 248141151344178998485600,
  248151097792355362849500, 248171029704646566036400, 248190644388266600436400, 248251047198791515669600, 248330981248876871498300,
  248400911934158815503800, 248470558302187476019100, 248531124150807450121500, 248590748474747775301800, 248630854516636266390600,
  248671135929111015760000, 248681167107073418844000, 248710973919590324951100, 248950794567120849688600, 249070854516636266390600,
  249081255142945683653200, 249131031573859867251600, 249170900621661724116200, 249300898771314567660300, 249311097792355362849500,
  249360946038700347821600, 249420644100609498315450, 249440818645922379080600, 249501021415880585459700, 249620780649732847328200,
  249701004710472119143000, 249760839346591377154000, 249770990817924896123800, 249861151344178998485600, 249961167107073418844000,
  250011116513509571664100, 250031026664898847599300, 250041023714832407929400, 250101164697318260938000, 250140860472089342049500,
  250151274558547127749000, 250221255142945683653200, 250260997747102943263000, 250321289973615110474700, 250330591780147394835950,
  250421129029823867064800, 250551399834843977285800, 250741016970704328376300, 250781129029823867064800, 250790900282678348665000,
  250801070251157376852900, 250821399834843977285800, 250840947655986272381800, 250861031573859867251600, 250880874738476960829000,
  250961074025190175137500, 251011141435088734062700, 251021330520125921291300, 251030894369626025982700, 251040414708882879721800,
  251051153449519918269000, 251060985918986176096400, 251120599289795918509400, 251141318741822355652900, 251300921503206840129300,
  251340977151469450467800, 251360599289795918509400, 251380894369626025982700, 251391377520488845864800, 251400888335313035236000,
  251420859567105790057800, 251430859567105790057800, 251510840829473044499800, 251520681239340372843200, 251591267659259979053800,
  251630621606236316479700, 251651047936802245431800, 251660772972575304442800, 251691048680300094183700, 251710759394676971801000,
  251760758161615726053100, 251870973215362062409800, 251910922766381530719200, 251950919023740978807500, 251960721134936192652000,
  251971185828227627658600, 251980869255905838612000, 251990930700055754371300, 252000772972575304442800, 252060947928095283817700,
  252090787695272307284400, 252140737561211582301700, 252150754708844001166400, 252161330520125921291300, 252201012195261198786300,
  252261041482950131674700, 252330917605277479612000, 252351011164324232900200, 252370833365335382470300, 252380857670785719282200,
  252390761949789795661700, 252400892317462453903000, 252420884217084038594300, 252501032839699554444000, 252520592978885186616300,
  252530677541752403001700, 252591033478679364321100, 252601220658897054480200, 252650911365436903445000, 252690950132041240447000,
  252731000936439320858400, 252760841579242255080000, 252821101519494842572700, 252850758284239898377500, 252861028477637306855000,
  252890930470960579715700, 252921013236937284611700, 252930902334032331975200, 252961318741822355652900, 252980947384615685222000,
  252990881375983855316400, 253000849607034132738500, 253021308205770789870200, 253031135929111015760000, 253041083076590929220700,
  253051308205770789870200, 253071110797668187669300, 253080809845108619036600, 253110827803666316544600, 253140894689115115634700,
  253151172108115476310200, 253170928208420627918000, 253180960081761856301000, 253200903550380951295000, 253210639769601148598400,
  253240549647195246851350, 253251040103617918441000, 253291180112386243663800, 253311020849306831892000, 253341538464280089274700,
  253401025474408596967500, 253420796766317951159400, 253430902334032331975200, 253450490822844636152500, 253460817456317272196000,
  253510882502756339950500, 253521208880593488842000, 253611229360034753443300, 253660992932168553504700, 253711377520488845864800,
  253741139565875432847400, 253751043588291051458000, 253760982012239357005400, 253770862075789233031200, 253791216576697602454800,
  253800915023207517437600, 253810646118482119778200, 253861108057770768857800, 253870852818081629816200, 253910933963748685673600,
  253941137730961566027700, 254021249427104299658400, 254061043588291051458000, 254141377520488845864800, 254170889088896104106200,
  254231162344268519918500, 254241343873265183743500, 254290792818824571653900, 254380939317825378476600, 254390817013838674160400,
  254411343873265183743500, 254420628389410554665950, 254431105390946060641600, 254470895009628210529600, 254491318741822355652900,
  254540773781140946226600, 254631045738911573554300, 254661208880593488842000, 254750919023740978807500, 254791048680300094183700]

def emitE52_3 : List Nat := [
  254800892161334397207800, 254810726643575148696550, 254840897941434286190600, 254900699528298098639600, 254941216576697602454800,
  254960768118375302557300, 254971216576697602454800, 254990817456317272196000, 255040950690701911311000, 255050819774178048111700,
  255060839070982566955900, 255071538464280089274700, 255090680222382455880300, 255110818870557441718000, 255121015889612717954700,
  255130995529717193830700, 255140982012239357005400, 255201469149562033280400, 255271007637510349154300, 255361172108115476310200,
  255401147261979546460300, 255491244020382172630700, 255510961009125534834000, 255520941083318902348700, 255540978993142129090900,
  255581065725498218040800, 255620721134936192652000, 255630628389410554665950, 255690695649942631002200, 255711182929473940333400,
  255811040790905847217300, 255820646118482119778200, 255880783661383095773400, 255970947384615685222000, 256010946306438124893200,
  256021281969344343121000, 256051077947261490465700, 256130817013838674160400, 256151052483039653107600, 256160996410780162046300,
  256191108057770768857800, 256220895977377698736000, 256231105390946060641600, 256301182929473940333400, 256331116513509571664100,
  256381399834843977285800, 256421308205770789870200, 256441122575971753307700, 256451090730598641454200, 256541032839699554444000,
  256581157798031112242800, 256680887438446036959800, 256700937092764484994600, 256710895977377698736000, 256741066614392959765400,
  256881032839699554444000, 256951281969344343121000, 257050880261766199992100, 257200856790692029778000, 257211076952228405148800,
  257360939317825378476600, 257440710266574202499000, 257450710266574202499000, 257461074025190175137500, 257470982012239357005400,
  257580921294220348183200, 257641012714742886496600, 257650903550380951295000, 257710884217084038594300, 257730954400114351934900,
  257761025474408596967500, 257781048680300094183700, 257831289973615110474700, 257871139565875432847400, 257880968754931438734300,
  257911343873265183743500, 257930928208420627918000, 257941343873265183743500, 257971180112386243663800, 257990639769601148598400,
  258020610524289298507000, 258030862075789233031200, 258051185828227627658600, 258101043588291051458000, 258120758284239898377500,
  258180773781140946226600, 258221174705664116636200, 258240915023207517437600, 258261208880593488842000, 258300900621661724116200,
  258360827803666316544600, 258410946306438124893200, 258421007637510349154300, 258471289973615110474700, 258500937092764484994600,
  258511174705664116636200, 258540772972575304442800, 258561182929473940333400, 258710894689115115634700, 258741083076590929220700,
  258760960081761856301000, 258801238891052733875700, 258841157798031112242800, 258850887438446036959800, 258901083076590929220700,
  258911377520488845864800, 258921066614392959765400, 258981077947261490465700, 259000947384615685222000, 259030920669868684214700,
  259100626357089667474700, 259130764007299153825200, 259150727842989827278500, 259180598674460532736400, 259190768616001301180150,
  259250942363746126947500, 259280781111153814679800, 259320860018573825510500, 259350966433102428533700, 259370735749269405997300,
  259430676471253202539800, 259441074991381266311300, 259450761231122572313450, 259470922132799685810800, 259540946844073828531300,
  259550697548035369021600, 259640858002828083012400, 259680910799931155110400, 259701027869732699216800, 259720806213236689535300,
  259730860018573825510500, 259751106715468735643700, 259760910799931155110400, 259860922132799685810800, 259870967421578351787800,
  259910862075789233031200, 259951097792355362849500, 260070843191415626788000, 260090812061265799321900, 260120827394667791392100,
  260210829456596511665700, 260251066614392959765400, 260281066614392959765400, 260290615107430279735800, 260320646171787025091500,
  260390615107430279735800, 260410965454301791917400, 260440412080709775274400, 260450643514784741478700, 260531343873265183743500,
  260590846891935226143400, 260631113614755884338900, 260711162344268519918500, 260800747075608603666600, 260850986718990442804000,
  260861298674752809437800, 260870934677188097061000, 260881004710472119143000, 260891009133797616825500, 260971162344268519918500,
  261020834585925950420700, 261260554708139847278700, 261271042881574329148700, 261311174705664116636200, 261431155600140440365400,
  261440664670894277861100, 261491047936802245431800, 261590559589292582704400, 261651143339908231132000, 261740908019399847076700,
  261780834585925950420700, 261790922554741240081500, 261881330520125921291300, 261941001400477276508600, 261950883642369813037500,
  261970915613179730156500, 262120974985319772349800, 262141318741822355652900, 262231067511259958041400, 262241038069649494728900,
  262281205243829071754500, 262341145281716816842300, 262441029089260008598600, 262480915613179730156500, 262570968419922750206100,
  262620793922524419106100, 262631041482950131674700, 262741249427104299658400, 262891143339908231132000, 262921147261979546460300,
  263130883642369813037500, 263481001400477276508600, 263521052483039653107600, 263540814399310663728200, 263551028477637306855000,
  263560809026550160392700, 263600756621252882209200, 263670741183201677134400, 263710548727392936479700, 263760965130152399500200,
  263770363041957402826800, 263810710114867473023700, 263950560807994193028700, 263970994656349196955200, 263990735618763677849700,
  264080953244032111827400, 264120911934158815503800, 264150802390289783447000, 264260844248609519327800, 264291343873265183743500,
  264320734419591958963900, 264340893892298150717000, 264350730008038565744400, 264381399834843977285800, 264401469149562033280400,
  264480959468262999549500, 264491110797668187669300, 264541289973615110474700, 264630673012541861329200, 264641174705664116636200,
  264651121025553099711100, 264690385319003130863600, 264791016428697581442400, 264811172108115476310200, 264940887289747124802000,
  264950976787170322617700, 264970928881823846052300, 265000993360434732704800, 265050987121405472776600, 265120892630451754795800,
  265171216576697602454800, 265190934438808961533400, 265221267659259979053800, 265240986718990442804000, 265251267659259979053800,
  265331538464280089274700, 265380950690701911311000, 265431101519494842572700, 265500859342133816656300, 265790754708844001166400,
  265881281969344343121000, 265970747920115183246200, 266121088483313056248400, 266310767758014552227500, 266321428603051222463800,
  266391099019364622030900, 266411040103617918441000, 266431343873265183743500, 266471051710835043716600, 266570966761509948652700,
  266790969091066209005000, 266800824418975779159000, 266810978622084189437300, 266840821529278422214800, 266851188813523942626700,
  266901377520488845864800, 266960796706239847820400, 267001105390946060641600, 267071100261616621886600, 267231063971067252949800,
  267250954400114351934900, 267281208880593488842000, 267291212654626287126500, 267421289973615110474700, 267511399834843977285800,
  267531125750841584765600, 267571343873265183743500, 267671428603051222463800, 267711428603051222463800, 267751212654626287126500,
  267811121025553099711100, 267861255142945683653200, 267900947655986272381800, 267971057245844552033100, 268001169576334677881100,
  268160851147896668023000, 268200734162191559446600, 268251281969344343121000, 268271032204776786578100, 268341330520125921291300,
  268421220658897054480200, 268551428603051222463800, 268651377520488845864800, 268741234012036316932500, 268930744157008361481500,
  269741377520488845864800, 269890612237433605620600, 269970928881823846052300, 270040884940152987909000, 270360933490934566079000,
  270481056436123528771100, 270511538464280089274700, 270540813756221630699100, 270631121025553099711100, 270671087378329437589700,
  270830993360434732704800, 270841330520125921291300, 270850950690701911311000, 270911174705664116636200, 271231208880593488842000,
  271331141435088734062700, 271371212654626287126500, 271380917806687416782000, 271550884940152987909000, 271610767758014552227500,
  271691428603051222463800, 271710969091066209005000, 271780906387450664216500, 271931040103617918441000, 272110954400114351934900,
  272310844248609519327800, 272430906387450664216500, 272841063971067252949800, 272980851147896668023000, 273311281969344343121000,
  273701538464280089274700, 273961099019364622030900, 274020730008038565744400, 274240992081099586713800, 274251047198791515669600,
  274260692359677009951200, 274311298674752809437800, 274420947928095283817700, 274501169576334677881100, 274540766462486046050400,
  274630933963748685673600, 274650978252398001304800, 274680903550380951295000, 274721298674752809437800, 274890692359677009951200,
  274900602803992193831300, 274910739068525331918300, 274930794039415139604300, 274940980491297490652500, 275061151344178998485600,
  275110767175183940261800, 275120763747783437241350, 275150661918426938852100, 275161016428697581442400, 275231113614755884338900,
  275310992081099586713800, 275391063105260978638400, 275420795156745199416800, 275440992081099586713800, 275531132419979034632900,
  275661063105260978638400, 275671132419979034632900, 275701016428697581442400, 275721129029823867064800, 275731077947261490465700,
  275780734419591958963900, 275801167107073418844000, 275840789299732728761500, 275850789299732728761500, 275901129029823867064800,
  276020769116116005757300, 276040654493142218927300, 276050840922887343679500, 276090967421578351787800, 276111088483313056248400,
  276271224914858496359700, 276451538464280089274700, 276650844248609519327800, 276680740804739157617100, 276821113614755884338900,
  276830740804739157617100, 276871043588291051458000, 276911113614755884338900, 276981377520488845864800, 276991377520488845864800,
  277000670159624538986300, 277131289973615110474700, 277140549901376665793300, 277190935877682706743400, 277211538464280089274700,
  277350939568138400288400, 277391318741822355652900, 277441428603051222463800, 277450923617450497510200, 277481164697318260938000,
  277600880539158888264800, 277700624913373953956900, 277840915023207517437600, 277850915023207517437600, 277921359288333166469300,
  277940823472596476064000, 278011125750841584765600, 278031308205770789870200, 278071188813523942626700, 278090823472596476064000,
  278141132419979034632900, 278270895331171895926800, 278321062246886609499300, 278330847389201293081300, 278350642738985660384700,
  278440863471160710417800, 278500937828964129101500, 278520825775199199394000, 278610634948949680992050, 278671343873265183743500]

def emitE52_4 : List Nat := [
  278730961320167776273100, 278740964484988871351400, 278750907290799173983400, 278771089600643116060800, 278800605927875234778300,
  278820868514246073107000, 278911182929473940333400, 278990924907790981100900, 279001139565875432847400, 279011121025553099711100,
  279051094199154440243200, 279151151344178998485600, 279221030946898565892000, 279270867047227098327700, 279341129029823867064800,
  279411109418335974435600, 279450863471160710417800, 279460973215362062409800, 279630802136321392971000, 279651016428697581442400,
  279660863588325340106900, 279690757713275867655600, 279731076952228405148800, 279741094199154440243200, 279781162344268519918500,
  279790672786159526945700, 279820934438808961533400, 279851330520125921291300, 279941013761872873226200, 280100987121405472776600,
  280140879571632335922800, 280200952385657742688200, 280230848089554330814900, 280240990400387755075700, 280341182929473940333400,
  280400753531898285218700, 280410809298659171828700, 280440939819079560831000, 280461124150807450121500, 280531119498805886632200,
  280611095382600204943400, 280681040103617918441000, 280700806213236689535300, 280720569968446212008400, 280731298674752809437800,
  280781229360034753443300, 280791308205770789870200, 280821102793397420315600, 280851075966998760847700, 280881017515664805132800,
  280921008133789283367300, 280960970447019187568000, 281021042179817063284000, 281081030323843590828600, 281220868514246073107000,
  281291000474544735228800, 281321267659259979053800, 281360954109838386138900, 281381132419979034632900, 281390969428334656868700,
  281450921712631000440700, 281511082029460942491100, 281531469149562033280400, 281541076952228405148800, 281550900113616600874200,
  281650771421427870205500, 281731160045316697448700, 281741110797668187669300, 281801274558547127749000, 281831160045316697448700,
  281870752754893599025500, 281930770123911983892200, 282010833973768376337800, 282040672786159526945700, 282071122575971753307700,
  282120993790542922643800, 282160858447273259054800, 282221330520125921291300, 282271100261616621886600, 282341106715468735643700,
  282381169576334677881100, 282461216576697602454800, 282630939819079560831000, 282711164697318260938000, 282870958555014643222200,
  282910861729967562735600, 282931042179817063284000, 282971167107073418844000, 283040897941434286190600, 283100670159624538986300,
  283161195065559640760200, 283171188813523942626700, 283220982781473919321000, 283310833973768376337800, 283350924691574680651500,
  283421172108115476310200, 283461147261979546460300, 283570713454504831990300, 283641040103617918441000, 283690755223187370482800,
  283780998196541902046900, 283820884505684527507800, 283850709384845351139300, 283880969428334656868700, 283890949023996662789700,
  283931208880593488842000, 283990884505684527507800, 284021160045316697448700, 284140998196541902046900, 284150709384845351139300,
  284171274558547127749000, 284221281969344343121000, 284310930929676980406400, 284351060551930778121800, 284360735260748649392300,
  284481127376893671943700, 284501538464280089274700, 284590930470960579715700, 284601160045316697448700, 284651088483313056248400,
  284660569968446212008400, 284701428603051222463800, 284781071181396643084200, 284791094199154440243200, 284971139565875432847400,
  285001094199154440243200, 285071074025190175137500, 285081074025190175137500, 285141538464280089274700, 285160806213236689535300,
  285260965454301791917400, 285280861729967562735600, 285441298674752809437800, 285511095382600204943400, 285770956159690540973000,
  285801121025553099711100, 286080652969248439242300, 286091162344268519918500, 286290958555014643222200, 286390934438808961533400,
  286510949023996662789700, 286551289973615110474700, 286661042179817063284000, 286700969428334656868700, 286781110797668187669300,
  286810924907790981100900, 287481042881574329148700, 287531030946898565892000, 287601208880593488842000, 287790768570660107930000,
  287810713454504831990300, 287830919432739503960000, 287841229360034753443300, 287890994222509037095400, 287901155600140440365400,
  287961298674752809437800, 287971060551930778121800, 287981060551930778121800, 288090968754931438734300, 288101255142945683653200,
  288141088483313056248400, 288180851875172600931000, 288211538464280089274700, 288221298674752809437800, 288251298674752809437800,
  288451096580219309615000, 288460992081099586713800, 288511343873265183743500, 288560791727173397518900, 288570822924649899601400,
  288580379990843317608700, 288600790760432857305150, 288650934438808961533400, 288660899776348153010400, 288721538464280089274700,
  288741330520125921291300, 288911149282250278212200, 288950858558693883395200, 289001064844435249825200, 289020955569718328254100,
  289030768208668762416600, 289071155600140440365400, 289090754708844001166400, 289381399834843977285800, 289501377520488845864800,
  289531298674752809437800, 289541054045571443415600, 289610747075608603666600, 289660969766744455292900, 289820933963748685673600,
  290010790760432857305150, 290061095382600204943400, 290170858558693883395200, 290221234012036316932500, 290280978993142129090900,
  290310787695272307284400, 290330955569718328254100, 290381078952295075815800, 290481538464280089274700, 290601538464280089274700,
  290661469149562033280400, 290711162344268519918500, 290761359288333166469300, 290870961632180509897500, 291001034121768397350200,
  291050754708844001166400, 291230882078727436062000, 291280919432739503960000, 291291298674752809437800, 291380768208668762416600,
  291451155600140440365400, 291481377520488845864800, 291510798892119229070300, 291651149282250278212200, 291900980114649211105000,
  291970934438808961533400, 292000968754931438734300, 292110899776348153010400, 292281001866678587089700, 292290880678144317170100,
  292330748474747775301800, 292371024884436384248700, 292381121025553099711100, 292451174705664116636200, 292461377520488845864800,
  292541117995018150178200, 292550971821611278031700, 292560705329737604702340, 292600727031809173740900, 292730936848564119439500,
  292750995529717193830700, 292820981248876871498300, 292870888335313035236000, 292890881937783085738800, 292980827803666316544600,
  293011330520125921291300, 293091330520125921291300, 293101343873265183743500, 293131469149562033280400, 293590815698030216409400,
  293660934916136836799300, 293691428603051222463800, 293760934916136836799300, 293781180112386243663800, 293921538464280089274700,
  293991343873265183743500, 294081124150807450121500, 294201249427104299658400, 294221274558547127749000, 294250886993011002021900,
  294540909492722998375100, 294681067511259958041400, 294821047936802245431800, 294860916604268120101800, 294921255142945683653200,
  294941428603051222463800, 295080886993011002021900, 295091274558547127749000, 295180863588325340106900, 295441249427104299658400,
  295540768752148361012300, 295570909492722998375100, 295601308205770789870200, 295630916604268120101800, 295750901474181806452200,
  295790956159690540973000, 296090947655986272381800, 296160403308398837008600, 296421281969344343121000, 296770802772455853672700,
  296940403308398837008600, 296990874476696706621200, 297020567032016763258300, 297301087378329437589700, 297481054836089394127000,
  297901538464280089274700, 298351538464280089274700, 298631330520125921291300, 299261538464280089274700, 299421267659259979053800,
  299761009637577019821300, 299830477516588278338000, 299860641892501190789900, 299920455751161543728200, 300000976424193517559800,
  300010884940152987909000, 300021102793397420315600, 300030911744225235138700, 300050760643132638025500, 300110859567105790057800,
  300211249427104299658400, 300280935155657909394700, 300310966105769894036600, 300410686087129411638850, 300441174705664116636200,
  300500840922887343679500, 300530784668014112454000, 300580990400387755075700, 300590859567105790057800, 300640912315111657170500,
  300700692190579527256900, 300721143339908231132000, 300861298674752809437800, 300900892317462453903000, 300951318741822355652900,
  300970734580804310499950, 301030678017160136944950, 301161399834843977285800, 301230890153544943555000, 301271023714832407929400,
  301400933020345462337800, 301461212654626287126500, 301490738664348291301700, 301511041482950131674700, 301621030323843590828600,
  301681330520125921291300, 301710899105204694211600, 301831538464280089274700, 301860989158135755220000, 301921012195261198786300,
  301961267659259979053800, 302011030946898565892000, 302021030946898565892000, 302071034769019847912000, 302081224914858496359700,
  302091359288333166469300, 302191023714832407929400, 302270989158135755220000, 302501538464280089274700, 302511151344178998485600,
  302701109418335974435600, 302740678017160136944950, 302841063105260978638400, 303031538464280089274700, 303061030323843590828600,
  303151205243829071754500, 303181109418335974435600, 303211151344178998485600, 303221205243829071754500, 303310891229650639184700,
  303320523433423368805300, 303330654841422936673400, 303400924045716676710200, 303820965454301791917400, 303851399834843977285800,
  303941399834843977285800, 304061281969344343121000, 304081145281716816842300, 304100764528359820365000, 304161065725498218040800,
  304171188813523942626700, 304220756259879270712900, 304231075966998760847700, 304240669181704083335300, 304271130710535698702800,
  304281075966998760847700, 304310897941434286190600, 304330815988939512477700, 304351188813523942626700, 304360669181704083335300,
  304420647351741718207000, 304460863120488229496800, 304501132419979034632900, 304520783766868337622100, 304560838157734210628600,
  304571137730961566027700, 304600978252398001304800, 304650891229650639184700, 304731030946898565892000, 304750583184812061780460,
  304950897776281482343400, 304960841673359909086500, 305011359288333166469300, 305021359288333166469300, 305051129029823867064800,
  305081162344268519918500, 305181343873265183743500, 305201191890689809302200, 305221083076590929220700, 305240843382803245016400,
  305260923831354322385100, 305280539419803950072400, 305351538464280089274700, 305440879296906888409000, 305580879296906888409000,
  305610870755933964561300, 305621428603051222463800, 305681191890689809302200, 305721023135120639496900, 305851000474544735228800,
  306061428603051222463800, 306100955276032360923100, 306220955276032360923100, 306310892005449720278800, 306400993790542922643800,
  306431330520125921291300, 306751162344268519918500, 306791469149562033280400, 306841538464280089274700, 306930584155139309720600]

def emitE52_5 : List Nat := [
  307010840178004942380600, 307071079967532222217700, 307190914436695572197800, 307211082029460942491100, 307221538464280089274700,
  307321072120370678068100, 307331180112386243663800, 307400931390507289025700, 307421216576697602454800, 307651244020382172630700,
  307720714637017625971900, 307781169576334677881100, 307821377520488845864800, 307841330520125921291300, 308271076952228405148800,
  308281121025553099711100, 308601141435088734062700, 308610838066866417006800, 308620831222090035537800, 308651538464280089274700,
  308711538464280089274700, 308761147261979546460300, 308961085204330773949300, 309001399834843977285800, 309081082029460942491100,
  309131281969344343121000, 309171208880593488842000, 309231145281716816842300, 309381216576697602454800, 309471147261979546460300,
  309520819698563677779300, 309771255142945683653200, 309901330520125921291300, 310010838066866417006800, 310140914436695572197800,
  310181169576334677881100, 310191377520488845864800, 310281220658897054480200, 310340471280783523374000, 310360833192175166042600,
  310381112196292385143300, 310400892473834651521300, 310621093029550463924000, 310661428603051222463800, 310690936604958639651400,
  310700884361280170284500, 310711141435088734062700, 310771330520125921291300, 310800844055559266322100, 310851071181396643084200,
  310950950132041240447000, 310961054836089394127000, 311041089600643116060800, 311050699892597226489700, 311091124150807450121500,
  311171054836089394127000, 311190958858505012737600, 311420765315077164706400, 311461124150807450121500, 311500833192175166042600,
  311530950132041240447000, 311630668163416342830000, 311681162344268519918500, 311691070251157376852900, 311791220658897054480200,
  311810750724561453946100, 311851195065559640760200, 311861377520488845864800, 311920958858505012737600, 311990891229650639184700,
  312041359288333166469300, 312071198344541923059300, 312150732536657758709900, 312160608619998069502000, 312270701920316470404800,
  312321318741822355652900, 312370793108092924937500, 312430933255363196833000, 312460793108092924937500, 312780750724561453946100,
  312810608619998069502000, 312830910612137672690400, 312911229360034753443300, 312931274558547127749000, 312950947384615685222000,
  313090732536657758709900, 313191234012036316932500, 313370910612137672690400, 313481132419979034632900, 313500796886582547735500,
  313511185828227627658600, 313540823708352970329500, 313590817087449277410700, 313611149282250278212200, 313630982396116987722000,
  313641155600140440365400, 313731068416243510033100, 313771182929473940333400, 313831116513509571664100, 313841205243829071754500,
  313881014289578583310600, 313891289973615110474700, 313971198344541923059300, 314011289973615110474700, 314041538464280089274700,
  314061185828227627658600, 314071182929473940333400, 314181198344541923059300, 314281014289578583310600, 314291068416243510033100,
  314340982396116987722000, 314350480764970805196300, 314491083076590929220700, 314541229360034753443300, 314551249427104299658400,
  314561062246886609499300, 314591330520125921291300, 314690916803669980788300, 314711180112386243663800, 314781229360034753443300,
  314871343873265183743500, 314921469149562033280400, 314961343873265183743500, 315050694109614964480900, 315080903027276009539800,
  315151261205407865296700, 315181188813523942626700, 315260932085759220514000, 315321089600643116060800, 315480919637867781015700,
  315580903027276009539800, 315610774740841210327500, 315631032839699554444000, 315690841203654959099500, 315720676724234905948500,
  315740890767043800306400, 315791377520488845864800, 316090912124453830112400, 316140936119520793171500, 316161066614392959765400,
  316390597807796695361900, 316490722956791308130950, 316591212654626287126500, 316611077947261490465700, 316651169576334677881100,
  316800871260985543168200, 316840721445714801310600, 316871308205770789870200, 316890841203654959099500, 317211377520488845864800,
  317261162344268519918500, 317511318741822355652900, 317771066614392959765400, 317871212654626287126500, 318001040103617918441000,
  318050936119520793171500, 318061308205770789870200, 318111162344268519918500, 318200912124453830112400, 318211135929111015760000,
  318400919637867781015700, 318580897446791892658200, 318591208880593488842000, 318671105390946060641600, 318691298674752809437800,
  318811050184087830637700, 318901180112386243663800, 319091428603051222463800, 319141469149562033280400, 319180957650031091230500,
  319340950971207004071900, 319411274558547127749000, 319460965130152399500200, 319580928208420627918000, 319661469149562033280400,
  319681141435088734062700, 319750957650031091230500, 319950678090500807632500, 320001274558547127749000, 320040712285812137799600,
  320050850425871870674200, 320061469149562033280400, 320091318741822355652900, 320130746710644694911700, 320201072120370678068100,
  320230963524981498449400, 320250853240023184087000, 320260776688322428424300, 320321188813523942626700, 320331155600140440365400,
  320340744834010769078900, 320390759892190435812300, 320470738899919660547700, 320481180112386243663800, 320570683169643977069300,
  320660917404272386809400, 320681023714832407929400, 320701359288333166469300, 320800667040365728417400, 320850726286538173167350,
  320970888185275497712500, 321020650586672918519500, 321041330520125921291300, 321101428603051222463800, 321131011164324232900200,
  321140987931126496038600, 321290986318188303050100, 321470757510147623933800, 321600923617450497510200, 321731104083737903906500,
  321771155600140440365400, 321780777626832651196500, 321800996854239868832800, 321911255142945683653200, 322020759892190435812300,
  322101007143682185096100, 322180965454301791917400, 322211051710835043716600, 322241039421021411401100, 322270891229650639184700,
  322320772452848171882000, 322330809571510637149100, 322440905314095099905600, 322661040103617918441000, 322830960389928510041800,
  322911318741822355652900, 322991087378329437589700, 323020715486505081086000, 323050820838826887560400, 323151064844435249825200,
  323171011678464182942000, 323181298674752809437800, 323261298674752809437800, 323400626938263516683500, 323411068416243510033100,
  323500765887135930479600, 323531377520488845864800, 323611162344268519918500, 323620858447273259054800, 323710914047590022901200,
  323770908937679945310300, 323801090730598641454200, 323860932785878766412300, 323960545412390930558900, 323990952957087869032000,
  324031255142945683653200, 324061249427104299658400, 324171469149562033280400, 324180850425871870674200, 324201249427104299658400,
  324220712285812137799600, 324230776688322428424300, 324261274558547127749000, 324271318741822355652900, 324311072120370678068100,
  324330963524981498449400, 324341155600140440365400, 324350746710644694911700, 324370820838826887560400, 324400853240023184087000,
  324421155600140440365400, 324470965454301791917400, 324510905314095099905600, 324521023714832407929400, 324541180112386243663800,
  324550626938263516683500, 324560917404272386809400, 324581359288333166469300, 324610683169643977069300, 324620908937679945310300,
  324630757510147623933800, 324650986318188303050100, 324661330520125921291300, 324670667040365728417400, 324690765887135930479600,
  324720858447273259054800, 324730650586672918519500, 324760888185275497712500, 324770726286538173167350, 324791011164324232900200,
  324831377520488845864800, 324871090730598641454200, 324891298674752809437800, 324901007143682185096100, 324930545412390930558900,
  324991162344268519918500, 325001104083737903906500, 325011255142945683653200, 325110923617450497510200, 325120996854239868832800,
  325211051710835043716600, 325310809571510637149100, 325321039421021411401100, 325340772452848171882000, 325360891229650639184700,
  325380960389928510041800, 325411087378329437589700, 325440952957087869032000, 325461040103617918441000, 325521255142945683653200,
  325530715486505081086000, 325541298674752809437800, 325581068416243510033100, 325601249427104299658400, 325640914047590022901200,
  325681318741822355652900, 325700855918276463744100, 325801100261616621886600, 325921428603051222463800, 325930777626832651196500,
  325970998196541902046900, 325990914631817585324000, 326020898438535558392600, 326100957350180791604700, 326170925777361677856300,
  326180778574234402133850, 326220636509980419156400, 326240898438535558392600, 326260725723823819966700, 326290877529355772536800,
  326310957350180791604700, 326411155600140440365400, 326450914631817585324000, 326481155600140440365400, 326501046466187506462300,
  326540938819071227372800, 326601330520125921291300, 326701172108115476310200, 326731101519494842572700, 326760950410981449204900,
  326801101519494842572700, 326810733681344343490700, 327011399834843977285800, 327091106715468735643700, 327220676074999081745400,
  327240938819071227372800, 327361289973615110474700, 327451359288333166469300, 327551469149562033280400, 327630842429507179144100,
  327641428603051222463800, 327680897941434286190600, 327690949576484255986700, 327710728691222722852850, 327811023714832407929400,
  327840961009125534834000, 327890964807050341355700, 327910820153109914946700, 327921132419979034632900, 328171399834843977285800,
  328191115053629629548800, 328241018063611381595200, 328271281969344343121000, 328421047198791515669600, 328431289973615110474700,
  328440737262456173368700, 328501318741822355652900, 328520894051154419230800, 328541056436123528771100, 328560882644499808047900,
  328580807075596925928600, 328620982012239357005400, 328741255142945683653200, 328790894051154419230800, 328801255142945683653200,
  328820775807259460208800, 328831018063611381595200, 328870737262456173368700, 328930734774602820767900, 328941289973615110474700,
  328991091873468223816300, 329011091873468223816300, 329021224914858496359700, 329051077947261490465700, 329201067511259958041400,
  329221124150807450121500, 329251169576334677881100, 329281089600643116060800, 329290645932138394886200, 329301155600140440365400,
  329321072120370678068100, 329330913853603541118500, 329371089600643116060800, 329430741597710042651300, 329460748215536372989300,
  329541162344268519918500, 329581045016886776205600, 329590947113979525447800, 329600831476867243417500, 329611116513509571664100,
  329631056436123528771100, 329661067511259958041400, 329720919228031141787700, 329741023135120639496900, 329821160045316697448700,
  329880752677524156094500, 330161093029550463924000, 330210437535220855292800, 330261220658897054480200, 330291116513509571664100]

def emitE52_6 : List Nat := [
  330321088483313056248400, 330331088483313056248400, 330411220658897054480200, 330431112196292385143300, 330500903900644006415300,
  330670736141811617607800, 330730736141811617607800, 330800902161469735228400, 330810831476867243417500, 330981428603051222463800,
  331021045016886776205600, 331041013236937284611700, 331081045016886776205600, 331091220658897054480200, 331261220658897054480200,
  331310947113979525447800, 331360928208420627918000, 331390903900644006415300, 331441089600643116060800, 331451084134801862274400,
  331500798463328373005600, 331511010652814166223100, 331621308205770789870200, 331761399834843977285800, 331781072120370678068100,
  331791174705664116636200, 331801267659259979053800, 331811052483039653107600, 332031087378329437589700, 332101132419979034632900,
  332131067511259958041400, 332151112196292385143300, 332181174705664116636200, 332250902161469735228400, 332261538464280089274700,
  332401428603051222463800, 332511059715105811070200, 332530990817924896123800, 332560665556925044101200, 332580667782147750011800,
  332611147261979546460300, 332670639345395896123800, 332680631840377289082240, 332751289973615110474700, 332761267659259979053800,
  332870648368492834768500, 332880810532396547812800, 332890738731597789465100, 332900934677188097061000, 332921076952228405148800,
  332930996854239868832800, 333100842809735774117800, 333111141435088734062700, 333220766285102407521200, 333291359288333166469300,
  333331101519494842572700, 333370865840939853400100, 333691359288333166469300, 333910896464787274560500, 333940808214637716542200,
  333951377520488845864800, 333991377520488845864800, 334020994656349196955200, 334100871260985543168200, 334261538464280089274700,
  334411343873265183743500, 334570873825228604501800, 334591185828227627658600, 334671164697318260938000, 334690909492722998375100,
  334870637997449931877000, 334901377520488845864800, 334951014820083806279900, 335021377520488845864800, 335091085204330773949300,
  335100839254637347686000, 335381298674752809437800, 335390721445714801310600, 335591229360034753443300, 335801201734697090627400,
  335900836624100182354800, 336061261205407865296700, 336090907109475461565200, 336101261205407865296700, 336160688296942113454800,
  336180927317546139007000, 336261255142945683653200, 336330647351741718207000, 336350813756221630699100, 336361208880593488842000,
  336431195065559640760200, 336470820229068900748500, 336741201734697090627400, 336981255142945683653200, 337190768752148361012300,
  337351538464280089274700, 337400940575703599162700, 337560978622084189437300, 337750818645922379080600, 337951085204330773949300,
  337961359288333166469300, 338061083076590929220700, 338290798892119229070300, 338530640939205124917600, 338621377520488845864800,
  338790539419803950072400, 339000826662659642741500, 339111208880593488842000, 339121261205407865296700, 339141119498805886632200,
  339221281969344343121000, 339451026067882148948800, 339481212654626287126500, 339761538464280089274700, 339881101519494842572700,
  339950756259879270712900, 340650985521371338132500, 340671399834843977285800, 340911399834843977285800, 340931195065559640760200,
  341090977151469450467800, 341641538464280089274700, 341801162344268519918500, 342140688296942113454800, 342181091873468223816300,
  342491089600643116060800, 342550726197477754634100, 342690994656349196955200, 342770820229068900748500, 343110637997449931877000,
  343141538464280089274700, 343261255142945683653200, 343271255142945683653200, 343601359288333166469300, 343831115053629629548800,
  343841010143907215476000, 343850644100609498315450, 343890738765239505509800, 343940950690701911311000, 343950950690701911311000,
  343961115053629629548800, 343981110797668187669300, 343990927317546139007000, 344070885376517316686300, 344111006652280704853200,
  344320798097251088037500, 344961308205770789870200, 345031399834843977285800, 345070990400387755075700, 345621238891052733875700,
  345780987525446426477000, 345881330520125921291300, 345931147261979546460300, 346381538464280089274700, 346450798097251088037500,
  346471377520488845864800, 347010936848564119439500, 348021006652280704853200, 348091428603051222463800, 348291538464280089274700,
  348471147261979546460300, 348800747002509185206900, 348851044300037828344300, 348920403176872407074600, 348930936604958639651400,
  348990802390289783447000, 349001117995018150178200, 349030943660781171210200, 349070785846388754660200, 349090877799261469453300,
  349130858893702571923400, 349150926875067540971500, 349170792588010851178800, 349200692911226986861700, 349241086285422384370800,
  349281055632906359044700, 349351032839699554444000, 349411298674752809437800, 349461469149562033280400, 349621127376893671943700,
  349661220658897054480200, 349871330520125921291300, 349890828957842360561700, 350090908202382514784300, 350100716882500906029400,
  350130681542658140935800, 350360792588010851178800, 350370681542658140935800, 350571151344178998485600, 350651065725498218040800,
  350901469149562033280400, 350971428603051222463800, 351311180112386243663800, 351831086285422384370800, 351860828957842360561700,
  351991261205407865296700, 352010534540132737900000, 352060979739414249249800, 352110527499510208282400, 352150917203670514123000,
  352191015889612717954700, 352220629726133631701300, 352381095382600204943400, 352420875395941525037600, 352501053261253697313100,
  352551068416243510033100, 352580769848049739984200, 352610867533846063445000, 352640829456596511665700, 352650527499510208282400,
  352660829456596511665700, 352680917203670514123000, 352691015889612717954700, 352700629726133631701300, 352720867533846063445000,
  352730769848049739984200, 352781095382600204943400, 352801053261253697313100, 352811068416243510033100, 352821249427104299658400,
  352941359288333166469300, 352990562675922221541200, 353020765754831611290700, 353071377520488845864800, 353161359288333166469300,
  353200765754831611290700, 353280748957930280117500, 353300688785641925417300, 353360523484219501576750, 353380916405263079300900,
  353401056436123528771100, 353420795988103906953900, 353470988338459034802000, 353491115053629629548800, 353501274558547127749000,
  353520731467465183290700, 353571155600140440365400, 353591208880593488842000, 353631289973615110474700, 353700697481212780501000,
  353730724520227901813900, 353770745084592607733700, 353800622223296267411550, 353860836088384615430500, 354081078952295075815800,
  354130769893973965820100, 354191343873265183743500, 354221023714832407929400, 354241180112386243663800, 354251155600140440365400,
  354260882928590908208300, 354300803028047047127200, 354330967753253614387200, 354401238891052733875700, 354410642661735753105500,
  354420594581319127760400, 354430927761991315049400, 354611261205407865296700, 354631119498805886632200, 354651020285925060066200,
  354690663475184535748900, 354750926434538194179800, 354801000474544735228800, 354821281969344343121000, 354860863237242475100600,
  354881043588291051458000, 354890971131953372125500, 354911359288333166469300, 354920845708489461443000, 354931399834843977285800,
  354940908937679945310300, 354961054836089394127000, 354980588867246059091500, 355060891539248409697500, 355131267659259979053800,
  355161244020382172630700, 355190605483192894039850, 355270781368421772373800, 355291116513509571664100, 355310678237343712139100,
  355331267659259979053800, 355380908569355403680500, 355420697726447548371700, 355471195065559640760200, 355541330520125921291300,
  355591185828227627658600, 355631067511259958041400, 355651056436123528771100, 355690976424193517559800, 355711087378329437589700,
  355750983946535641318600, 355761015889612717954700, 355820763488939461831100, 355840934200996721036600, 355851056436123528771100,
  355860695518852378451800, 355891177372488824852300, 355940973919590324951100, 355981205243829071754500, 356041149282250278212200,
  356071047198791515669600, 356110818870557441718000, 356130731061658476868600, 356161054045571443415600, 356570650364017663717850,
  356720666418228816709300, 356761105390946060641600, 356860910612137672690400, 356950805817718705242600, 356960697347701412204000,
  357030592978885186616300, 357091020285925060066200, 357120672352244066986800, 357220584528649297180700, 357310659681197163398800,
  357450523484219501576750, 357460688785641925417300, 357480663475184535748900, 357511056436123528771100, 357520795988103906953900,
  357530659681197163398800, 357541115053629629548800, 357551274558547127749000, 357570988338459034802000, 357580697347701412204000,
  357590916405263079300900, 357600731467465183290700, 357620818870557441718000, 357630976424193517559800, 357661155600140440365400,
  357680745084592607733700, 357700697726447548371700, 357721208880593488842000, 357730983946535641318600, 357740724520227901813900,
  357750697481212780501000, 357761289973615110474700, 357770650364017663717850, 357800769893973965820100, 357811343873265183743500,
  357820666418228816709300, 357841078952295075815800, 357850622223296267411550, 357860836088384615430500, 357881177372488824852300,
  357891023714832407929400, 357930805817718705242600, 357970803028047047127200, 357990967753253614387200, 358001238891052733875700,
  358021043588291051458000, 358031261205407865296700, 358050642661735753105500, 358100882928590908208300, 358121267659259979053800,
  358130594581319127760400, 358140927761991315049400, 358161330520125921291300, 358171155600140440365400, 358190971131953372125500,
  358201359288333166469300, 358210863237242475100600, 358221281969344343121000, 358230845708489461443000, 358241399834843977285800,
  358251000474544735228800, 358261054836089394127000, 358280588867246059091500, 358290908937679945310300, 358310678237343712139100,
  358321015889612717954700, 358340763488939461831100, 358350672352244066986800, 358371267659259979053800, 358380891539248409697500,
  358391116513509571664100, 358401195065559640760200, 358430605483192894039850, 358450908569355403680500, 358480781368421772373800,
  358501244020382172630700, 358510934200996721036600, 358540973919590324951100, 358551067511259958041400, 358561185828227627658600,
  358571149282250278212200, 358581056436123528771100, 358590695518852378451800, 358611056436123528771100, 358651087378329437589700,
  358681205243829071754500, 358740731061658476868600, 358751054045571443415600, 358761047198791515669600, 358891105390946060641600,
  358951205243829071754500, 359101399834843977285800, 359201089600643116060800, 359370770492916092637600, 359471399834843977285800]

def emitE52_7 : List Nat := [
  359481047936802245431800, 359701538464280089274700, 359971261205407865296700, 360000784242933769934500, 360010729362775918221650,
  360021000474544735228800, 360071096580219309615000, 360080865840939853400100, 360110861845108623239800, 360120678826881160206950,
  360151244020382172630700, 360221149282250278212200, 360230689873389951627750, 360240883499205865893700, 360270731561347211779000,
  360280904781706974630700, 360320919637867781015700, 360340965454301791917400, 360350905849332773764900, 360360940575703599162700,
  360390719985014672767000, 360421308205770789870200, 360511201734697090627400, 360600992932168553504700, 360620791727173397518900,
  360640936119520793171500, 360661093029550463924000, 360670687065474042545900, 360681182929473940333400, 360701261205407865296700,
  360740925124475789610000, 360760907290799173983400, 360771031573859867251600, 360840783450745840431900, 360901135929111015760000,
  360920594295264105525600, 360931012714742886496600, 361011117995018150178200, 361040900113616600874200, 361060890613315868418000,
  361111068416243510033100, 361151045016886776205600, 361251261205407865296700, 361270784242933769934500, 361291000474544735228800,
  361300729362775918221650, 361310678826881160206950, 361321093029550463924000, 361330676471253202539800, 361340907290799173983400,
  361350865840939853400100, 361360925124475789610000, 361391096580219309615000, 361401149282250278212200, 361410594295264105525600,
  361421244020382172630700, 361430861845108623239800, 361451182929473940333400, 361480904781706974630700, 361510883499205865893700,
  361530731561347211779000, 361540919637867781015700, 361561308205770789870200, 361590940575703599162700, 361610905849332773764900,
  361620965454301791917400, 361631045016886776205600, 361640719985014672767000, 361711261205407865296700, 361721031573859867251600,
  361750791727173397518900, 361760992932168553504700, 361800936119520793171500, 361820783450745840431900, 361841117995018150178200,
  361861135929111015760000, 361871012714742886496600, 361900890613315868418000, 361920900113616600874200, 361941068416243510033100,
  361981058062175615949100, 362080691558998480444600, 362120928432384887268500, 362140867533846063445000, 362150516099388516291200,
  362281102793397420315600, 362291060551930778121800, 362340772594324262444850, 362450867533846063445000, 362551330520125921291300,
  362591072120370678068100, 362750698286046098783900, 362821469149562033280400, 362910732821603336976400, 362921046466187506462300,
  362991538464280089274700, 363000607699424644956700, 363021255142945683653200, 363050806875929638296300, 363141116513509571664100,
  363170922343547919767200, 363191032204776786578100, 363210963843961035259500, 363241057245844552033100, 363281030946898565892000,
  363301047936802245431800, 363350766152270862641700, 363390924260539530539100, 363410761737880413544000, 363431330520125921291300,
  363441074025190175137500, 363451318741822355652900, 363670899105204694211600, 363680761737880413544000, 363820999557107107624700,
  363940780649732847328200, 364051177372488824852300, 364231538464280089274700, 364241084134801862274400, 364271048680300094183700,
  364281046466187506462300, 364371074025190175137500, 364601428603051222463800, 364611137730961566027700, 364641238891052733875700,
  364741330520125921291300, 364851267659259979053800, 364870981248876871498300, 364930732821603336976400, 364951068416243510033100,
  365011238891052733875700, 365061318741822355652900, 365101343873265183743500, 365221068416243510033100, 365230615351988973403700,
  365241074025190175137500, 365271216576697602454800, 365301244020382172630700, 365381115053629629548800, 365441216576697602454800,
  365540702106709814211000, 365550963843961035259500, 365560993360434732704800, 365570750724561453946100, 365751087378329437589700,
  366001274558547127749000, 366110944710659581032200, 366170671937449141114750, 366261359288333166469300, 366281027265501253620500,
  366290823865833317836000, 366371129029823867064800, 366391359288333166469300, 366551330520125921291300, 366591274558547127749000,
  366641028477637306855000, 366760787147925565867300, 366771330520125921291300, 366781318741822355652900, 366810655220100930692400,
  366851267659259979053800, 367031096580219309615000, 367051229360034753443300, 367100702106709814211000, 367110963843961035259500,
  367120993360434732704800, 367160655220100930692400, 367191087378329437589700, 367201096580219309615000, 367241274558547127749000,
  367310823865833317836000, 367330671937449141114750, 367390944710659581032200, 367401359288333166469300, 367411027265501253620500,
  367451129029823867064800, 367491359288333166469300, 367511274558547127749000, 367531330520125921291300, 367551028477637306855000,
  367561229360034753443300, 367571330520125921291300, 367580787147925565867300, 367601318741822355652900, 367611267659259979053800,
  367660848290559423617400, 367670814974438057791600, 367740671730695104679100, 367760915810613160528300, 367770930242389051630200,
  367810848290559423617400, 367830930242389051630200, 367850910988077965080800, 367861015889612717954700, 367931018063611381595200,
  367980669114612500811900, 368010788799036272446500, 368070529866703878334460, 368140788910085700849200, 368160741321180312339800,
  368170640510019916763400, 368200876323714912861400, 368240787585563025847200, 368270545290798541851700, 368281014820083806279900,
  368291013761872873226200, 368300798769419827173400, 368310895331171895926800, 368421289973615110474700, 368430818123727980965400,
  368451149282250278212200, 368480673888050868180300, 368550819849849637042300, 368570963843961035259500, 368611042881574329148700,
  368640705812597065321900, 368650711539827970969200, 368661216576697602454800, 368670879571632335922800, 368691153449519918269000,
  368700980869369774643100, 368730649258117534581400, 368790835644136883474400, 368800840085283563461300, 368820804835714087145000,
  368841428603051222463800, 368871132419979034632900, 368900689235724518269500, 368911042179817063284000, 368930957950783197626000,
  368941061395817642708300, 368950730285859395774700, 368960573475800715553900, 368980874869624520610100, 368990798769419827173400,
  369131428603051222463800, 369140545290798541851700, 369201045016886776205600, 369230952957087869032000, 369240943660781171210200,
  369291112196292385143300, 369301074991381266311300, 369350866201300603730000, 369380858447273259054800, 369390741321180312339800,
  369410960389928510041800, 369420529866703878334460, 369431180112386243663800, 369470471575717609277100, 369480669114612500811900,
  369491013761872873226200, 369511042179817063284000, 369551538464280089274700, 369580804835714087145000, 369601014820083806279900,
  369630854516636266390600, 369691216576697602454800, 369730969766744455292900, 369780895331171895926800, 369830788799036272446500,
  369840649258117534581400, 369861042179817063284000, 369910775224167429129450, 369920981629829713165000, 369960787585563025847200,
  370021018063611381595200, 370070952957087869032000, 370301343873265183743500, 370341058885225529600800, 370381318741822355652900,
  370510884505684527507800, 370571238891052733875700, 370961075966998760847700, 371091318741822355652900, 371170835113631660505000,
  371290845904760378228000, 371680884505684527507800, 371941399834843977285800, 371960970447019187568000, 371970742536684077635200,
  372020748660311012812900, 372181267659259979053800, 372281009133797616825500, 372370952957087869032000, 372401088483313056248400,
  372470912889275913938100, 372570893101780200005600, 372591172108115476310200, 372660733362059270207000, 372761112196292385143300,
  372910951252501141733300, 372941180112386243663800, 373061359288333166469300, 373120912889275913938100, 373131044300037828344300,
  373190819774178048111700, 373220685967987221214950, 373230685967987221214950, 373250656778956026532250, 373260989158135755220000,
  373270668896875206849400, 373290876991720068898700, 373411110797668187669300, 373471205243829071754500, 374281469149562033280400,
  374760910799931155110400, 374920908385700622950400, 375041343873265183743500, 375321117995018150178200, 375501255142945683653200,
  375590688073750380344600, 375611099019364622030900, 375860933255363196833000, 376041538464280089274700, 376101229360034753443300,
  376241137730961566027700, 376280995969278341134500, 376360723014262574080600, 376641538464280089274700, 376660746856470458996200,
  376701428603051222463800, 376721164697318260938000, 376781097792355362849500, 376790848190006373415500, 377071095382600204943400,
  377091119498805886632200, 377231399834843977285800, 377820888786781070688500, 378061031573859867251600, 378571172108115476310200,
  378601249427104299658400, 379121255142945683653200, 379341428603051222463800, 379410999557107107624700, 379561046466187506462300,
  379690908385700622950400, 380021330520125921291300, 380121205243829071754500, 380131399834843977285800, 380141255142945683653200,
  380150939317825378476600, 380241110797668187669300, 380351205243829071754500, 380471255142945683653200, 380500995969278341134500,
  380570910799931155110400, 380650746856470458996200, 380751399834843977285800, 380810999557107107624700, 380831469149562033280400,
  381341343873265183743500, 381361046466187506462300, 381381229360034753443300, 381440688073750380344600, 381450888786781070688500,
  381481538464280089274700, 381491095382600204943400, 381521099019364622030900, 381550933255363196833000, 381690848190006373415500,
  381701164697318260938000, 381781097792355362849500, 381791205243829071754500, 381821428603051222463800, 381891538464280089274700,
  381911137730961566027700, 382031399834843977285800, 382081119498805886632200, 382101249427104299658400, 382151031573859867251600,
  382361172108115476310200, 382561428603051222463800, 382621330520125921291300, 382630488821521821370600, 382710488821521821370600,
  382720698263601928562850, 382751012714742886496600, 382810752445774342058300, 382830525653279116301100, 382901021985682696923400,
  382910936119520793171500, 382961029704646566036400, 383070978993142129090900, 383210847888952458128400, 383441377520488845864800,
  383460921712631000440700, 383481428603051222463800, 383581359288333166469300, 383640598707625278915600, 383700814974438057791600,
  383760698263601928562850, 383781012714742886496600, 383810752445774342058300, 383820681561646083649300, 383831359288333166469300,
  383851377520488845864800, 383861021985682696923400, 383880936119520793171500, 383910938570623894606500, 383921029704646566036400]

def emitE52_8 : List Nat := [
  383930898438535558392600, 383950982012239357005400, 384010978993142129090900, 384041129029823867064800, 384050847888952458128400,
  384171428603051222463800, 384200921712631000440700, 384310867533846063445000, 384500746310716875919860, 384510970106303355406600,
  384521141435088734062700, 384530905314095099905600, 384590860585790320757100, 384680845024559096419000, 384691134159153305819800,
  384700787038814807633800, 384721028477637306855000, 384770588567080742919700, 384800790421449481854000, 384980891694407478839500,
  384990905314095099905600, 385000623330960949659700, 385050822379689422845000, 385061052483039653107600, 385121141435088734062700,
  385151028477637306855000, 385171428603051222463800, 385181070251157376852900, 385190801693422851837700, 385200787038814807633800,
  385250970106303355406600, 385341108057770768857800, 385380867533846063445000, 385430732599908867713000, 385441080993182238936600,
  385480888786781070688500, 385551134159153305819800, 385560738899919660547700, 385680732599908867713000, 385700822379689422845000,
  385771080993182238936600, 385821399834843977285800, 385841399834843977285800, 385900836893038040552000, 385961110797668187669300,
  385980632861978930092200, 385991066614392959765400, 386071164697318260938000, 386171169576334677881100, 386191164697318260938000,
  386200893892298150717000, 386221110797668187669300, 386260668163416342830000, 386270836893038040552000, 386320912889275913938100,
  386340918210728370482500, 386421004710472119143000, 386461071181396643084200, 386470906028383851143600, 386510760643132638025500,
  386541124150807450121500, 386560825294429042583700, 386601399834843977285800, 386631099019364622030900, 386651130710535698702800,
  386691054045571443415600, 386951124150807450121500, 387060615636428378555200, 387120989158135755220000, 387280994222509037095400,
  387381108057770768857800, 387421094199154440243200, 387450978993142129090900, 387480978993142129090900, 387500737927573357608500,
  387520739949886969412800, 387531079967532222217700, 387540751677131049642600, 387611019168595000253900, 387741308205770789870200,
  387951088483313056248400, 388081151344178998485600, 388291082029460942491100, 388491249427104299658400, 388990929786807398044000,
  389110877934487994454600, 389141006163282175434000, 389171024884436384248700, 389180913466755863326400, 389201027869732699216800,
  389240916206653282138000, 389271267659259979053800, 389280868884388383425600, 389310821683361657630400, 389360655614867142609550,
  389481399834843977285800, 389570584033332251347100, 389681205243829071754500, 389691244020382172630700, 389711068416243510033100,
  389881039421021411401100, 389890846003040484418800, 389911267659259979053800, 390000794567120849688600, 390031538464280089274700,
  390061105390946060641600, 390150733489650994055600, 390190990400387755075700, 390230908019399847076700, 390241538464280089274700,
  390251377520488845864800, 390301006163282175434000, 390331024884436384248700, 390340913466755863326400, 390351027869732699216800,
  390380733489650994055600, 390390821683361657630400, 390420916206653282138000, 390431267659259979053800, 390440868884388383425600,
  390451377520488845864800, 390460655614867142609550, 390481205243829071754500, 390561399834843977285800, 390571068416243510033100,
  390591244020382172630700, 390641039421021411401100, 390681267659259979053800, 390690846003040484418800, 390721538464280089274700,
  390760990400387755075700, 390781538464280089274700, 390800781162554484020200, 391081113614755884338900, 391180781162554484020200,
  391281113614755884338900, 391301469149562033280400, 391310839900098325354000, 391340839900098325354000, 391350784242933769934500,
  391381100261616621886600, 391461110797668187669300, 391491064844435249825200, 391510754787801762868150, 391540986718990442804000,
  391641180112386243663800, 391651281969344343121000, 391660792070619642382300, 391731289973615110474700, 391771216576697602454800,
  391780685059249241008800, 391840954691235372680900, 391861377520488845864800, 391871153449519918269000, 391920886402167333405300,
  392011267659259979053800, 392081188813523942626700, 392211229360034753443300, 392300982012239357005400, 392351141435088734062700,
  392430902506893222037100, 392501051710835043716600, 392621198344541923059300, 392691100261616621886600, 392741110797668187669300,
  392761064844435249825200, 392770754787801762868150, 392780986718990442804000, 392800792070619642382300, 392811281969344343121000,
  392821180112386243663800, 392861051710835043716600, 392871216576697602454800, 392921289973615110474700, 392951153449519918269000,
  392971377520488845864800, 393011267659259979053800, 393021188813523942626700, 393040902506893222037100, 393071198344541923059300,
  393091141435088734062700, 393110982012239357005400, 393180762417577167932700, 393210917404272386809400, 393400739001048946092200,
  393411019168595000253900, 393470890153544943555000, 393610954983206383014300, 393760860131760028878700, 393810920255789417611700,
  393870769161705247486000, 394251084134801862274400, 394381274558547127749000, 394490895331171895926800, 394720798463328373005600,
  394791125750841584765600, 394931072120370678068100, 395110765931276297561300, 395140860585790320757100, 395221538464280089274700,
  395320739001048946092200, 395331019168595000253900, 395360890153544943555000, 395371072120370678068100, 395390954983206383014300,
  395401538464280089274700, 395420769161705247486000, 395470860131760028878700, 395500920255789417611700, 395540877529355772536800,
  395631084134801862274400, 395640765931276297561300, 395691274558547127749000, 395750895331171895926800, 395781125750841584765600,
  395921031573859867251600, 396351538464280089274700, 396360912889275913938100, 396400564343891141406750, 396541267659259979053800,
  397170843191415626788000, 397190898438535558392600, 397261129029823867064800, 397291238891052733875700, 397400982781473919321000,
  397451255142945683653200, 397461060551930778121800, 397511469149562033280400, 397641205243829071754500, 397681469149562033280400,
  397700873049028070953000, 397911538464280089274700, 398541182929473940333400, 399951343873265183743500, 400600873049028070953000,
  400651538464280089274700, 400921182929473940333400, 401511343873265183743500, 401651399834843977285800, 401800869878185382439000,
  402011330520125921291300, 402321274558547127749000, 404781428603051222463800, 404791399834843977285800, 404811110797668187669300,
  404830869878185382439000, 404861330520125921291300, 404931274558547127749000, 405101428603051222463800, 405731065725498218040800,
  405751289973615110474700, 405991377520488845864800, 406131205243829071754500, 406141205243829071754500, 406351082029460942491100,
  406360865840939853400100, 406431046466187506462300, 406441046466187506462300, 406570884940152987909000, 406640925995940999854400,
  406681014289578583310600, 406700822924649899601400, 406800969766744455292900, 406921130710535698702800, 407181134159153305819800,
  407230943139946660496300, 407361169576334677881100, 407631046466187506462300, 407661238891052733875700, 407781047936802245431800,
  407791097792355362849500, 407841047936802245431800, 407861074991381266311300, 408011134159153305819800, 408181428603051222463800,
  408311074991381266311300, 408361134159153305819800, 408431428603051222463800, 408451234012036316932500, 408571234012036316932500]

def emitE53_0 : List Nat := [
  200270860666819784384000, 211520860666819784384000, 211830367219426471314850, 212180367219426471314850, 215170640944362050762100,
  227970472510439990040250, 274930258929226895135700, 289820666075804878852650, 296770791352101728389500, 304460491778874372990400,
  323960013751045546615960, 324930013751045546615960, 367660589861799674163000, 367770566222921867740000, 367810589861799674163000,
  367830566222921867740000, 373270929981537840378500, 382900722037383672394900, 383860722037383672394900, 389890681490872861578540,
  390690681490872861578540]

def emitE55_0 : List Nat := [
  201100000000000000000000, 260440000000000000000000]

def emitE56_0 : List Nat := [
  199680491248918895956300, 199790754990313283109200, 199901201581125148567600, 199940558094375692913800, 199971201581125148567600,
  200061201581125148567600, 200070913661279418763600, 200131091719896281756700, 200181053420671056146100, 200261293210198335983000,
  200301362524916391977600, 200410807228957899816000, 200461201581125148567600, 200480678898988664270900, 200561252663687525166700,
  200640762383428595862600, 200651223895480279988700, 200700775595225078600200, 200801058072672619635300, 200810871259427818372400,
  200831223895480279988700, 200980871259427818372400, 201021293210198335983000, 201041036715262589829400, 201050466580902030284600,
  201070830223918478136900, 201290737720628941134750, 201320752717488175353600, 201350349398879168577640, 201460906090097245194000,
  201540716847950834761300, 201671073487740602361200, 201711293210198335983000, 201741362524916391977600, 201840571870193155174100,
  201951009888863930361500, 202080986404904822621400, 202150576159789847112500, 202191167933901486446200, 202251293210198335983000,
  202391122735389112140700, 202401106029980645824000, 202410884612567080824700, 202471048975494799062600, 202481362524916391977600,
  202491362524916391977600, 202501201581125148567600, 202560560300824711323900, 202600813631143776309000, 202660851326137556323400,
  202720633495628147318000, 203010624125970594126760, 203030934858304490372100, 203051293210198335983000, 203071183348969469172100,
  203081006990110243036300, 203130813218772057922800, 203160313881999814472900, 203230924322252924589400, 203580588328126409909100,
  203631362524916391977600, 203811079203581986356000, 203981293210198335983000, 204401001433125127555200, 204450580360603767979500,
  204490587722063948740000, 204620690021552175293350, 204981029304465374457300, 205050842675213265395000, 205111293210198335983000,
  205380699061580605809050, 205400825927314889792500, 205511044719533357183000, 205721252663687525166700, 206050851326137556323400,
  206070632275274019245100, 206330556250126283342200, 206480754303025354333000, 206530924322252924589400, 206590560300824711323900,
  206610699061580605809050, 206630813631143776309000, 206870816141735889416600, 207290576159789847112500, 207670632275274019245100,
  207781362524916391977600, 207860754303025354333000, 208011293210198335983000, 208051201581125148567600, 208080639179374529833750,
  208090791813889917090000, 208111167933901486446200, 208120860796932710485200, 208130963626511735550100, 208170860796932710485200,
  208261114034251413177600, 208370822708646240202400, 208391142802458658355700, 208440709583032565755100, 208510427697460585428000,
  208520753393928184207900, 208530705576774350548100, 208590883775742113773000, 208641114034251413177600, 208691142802458658355700,
  208820865543586434377600, 208891122735389112140700, 208910838880720108982700, 208921029304465374457300, 209120899052017569014000,
  209140791813889917090000, 209150660774302097852000, 209181223895480279988700, 209190901012864707851700, 209230858182404700052900,
  209401098619183430451900, 209410858182404700052900, 209430889786134520743500, 209451293210198335983000, 209570933478972277138500,
  209860758261633023739550, 209870534758300306827300, 209980878106207746118500, 209990830223918478136900, 210091079203581986356000,
  210100948211443752824400, 210151293210198335983000, 210190806456753290424900, 210280575737767352345500, 210290928144374206609300,
  210330560959154936243700, 210350928144374206609300, 210400813218772057922800, 210460599430258302931750, 210470743084377281510400,
  210500851326137556323400, 210511106029980645824000, 210661132266407092573000, 210691252663687525166700, 210730953090460169767600,
  210851079203581986356000, 210931079203581986356000, 210980993636970980584000, 211061167933901486446200, 211090806456753290424900,
  211191183348969469172100, 211230948211443752824400, 211330953090460169767600, 211470899052017569014000, 211500871259427818372400,
  211510981858667414945600, 211520807617307902455700, 211530455428580841223600, 211600299216196882139100, 211610582426709266203600,
  211631091719896281756700, 211690740864306283491100, 211711362524916391977600, 212050299216196882139100, 212090455428580841223600,
  212131362524916391977600, 212141362524916391977600, 212150965495725036765500, 212200910346058687073500, 212370740864306283491100,
  212431079203581986356000, 212481079203581986356000, 212531223895480279988700, 212700355075381448996730, 212901252663687525166700,
  212951044719533357183000, 213061362524916391977600, 213071167933901486446200, 213111362524916391977600, 213121362524916391977600,
  213191114034251413177600, 213260859481124252734000, 213340993636970980584000, 213381142802458658355700, 213441006990110243036300,
  213451201581125148567600, 213501132266407092573000, 213511362524916391977600, 213550772809529628303600, 213601015951326112005000,
  213610977510156220971800, 213640888905071552528100, 213650855634496169954400, 213671167933901486446200, 213680839414054706519000,
  213691068081018475333500, 213710888905071552528100, 213821362524916391977600, 213870743288667444490400, 214070959989747318462800,
  214490919443236507646200, 214511293210198335983000, 214530965495725036765500, 214570668502669480013800, 214621073487740602361200,
  214631167933901486446200, 214640706989227210911150, 214670977510156220971800, 214721201581125148567600, 214750427210799331192300,
  214760695321621845870900, 214801122735389112140700, 214830909264967076652100, 214841132266407092573000, 214870769035496830018900,
  214951183348969469172100, 214971167933901486446200, 215120451163998090336500, 215160789840141633258000, 215170909264967076652100,
  215200875771471346419400, 215210915934104526519200, 215230942055654452881000, 215480954771172001405700, 215570971322615849163100,
  215600967400544533834900, 215780977510156220971800, 215921073487740602361200, 216191293210198335983000, 216281106029980645824000,
  216290464507695819476750, 216440839414054706519000, 216480945086189402414000, 216830911438965740292600, 217001293210198335983000,
  217090348361122796291700, 217291073487740602361200, 217411068081018475333500, 217611293210198335983000, 217961006990110243036300,
  218060435966331771761500, 218090820471416464749100, 218300696595524423613900, 218390772535181033728500, 218911362524916391977600,
  218980984105953000151600, 219141006990110243036300, 219161036715262589829400, 219171223895480279988700, 219191183348969469172100,
  219300913661279418763600, 219471142802458658355700, 220221167933901486446200, 220401362524916391977600, 220661167933901486446200,
  220991362524916391977600, 221221142802458658355700, 221510942055654452881000, 221790954771172001405700, 221991252663687525166700,
  222100954771172001405700, 222380738692453888026900, 222531183348969469172100, 222561053420671056146100, 222660844909943134594800,
  222690711350383427504900, 222700875771471346419400, 222830711350383427504900, 222901183348969469172100, 222940875771471346419400,
  223030951437529974646500, 223200971322615849163100, 223301167933901486446200, 223361154580762223994100, 223521362524916391977600,
  223620951437529974646500, 223691362524916391977600, 224110660149020918133300, 224381019126195943463000, 224750904028168524920500,
  224781085266044167999600, 225210664796782228902900, 225221252663687525166700, 225330951437529974646500, 225770583869735749106500,
  225801167933901486446200, 225811122735389112140700, 226041132266407092573000, 226091122735389112140700, 226150963626511735550100,
  226220894311793679555600, 226451053420671056146100, 226590724174252903577100, 226751019126195943463000, 226861362524916391977600,
  227181019126195943463000, 227390743288667444490400, 227681122735389112140700, 227881040637333905157600, 227910556250126283342200,
  227970752045593150479200, 227991079203581986356000, 228060576854237082393600, 228211362524916391977600, 228230905053818541639300,
  228251252663687525166700, 228311183348969469172100, 228330730448086966919400, 228360879693542661747500, 228421091719896281756700,
  228551252663687525166700, 228591362524916391977600, 228630888031703555652600, 228700743288667444490400, 228801252663687525166700,
  228901091719896281756700, 228941362524916391977600, 229021362524916391977600, 229091252663687525166700, 229181252663687525166700,
  229411252663687525166700, 229870953090460169767600, 229951252663687525166700, 230411006990110243036300, 230720996168751779013000,
  231001167933901486446200, 231300924322252924589400, 232411362524916391977600, 233801098619183430451900, 233810869799547876257200,
  233830905053818541639300, 233840803800050551952700, 233980827339103044371000, 234160827339103044371000, 234320730989116239744200,
  234331293210198335983000, 234500639323883225501800, 234541293210198335983000, 234560959989747318462800, 234570786005806113493200,
  234581079203581986356000, 234660904028168524920500, 234750939114265932251700, 234780940574145874367000, 234810792815567741437200,
  234851167933901486446200, 234861091719896281756700, 234871167933901486446200, 234921106029980645824000, 234940834713450468926000,
  235060975404815301188500, 235190729552825839708000, 235261293210198335983000, 235290786005806113493200, 235311122735389112140700,
  235321167933901486446200, 235410959989747318462800, 235451079203581986356000, 235480552751859025555700, 235530942055654452881000,
  235560787267652509414350, 235620986404904822621400, 235651079203581986356000, 235660552751859025555700, 235761053420671056146100,
  236141201581125148567600, 236211012874160245329600, 236240949811477887468500, 236370279409582148798830, 236460652770031330498400,
  236600652770031330498400, 236650786005806113493200, 236810921852991665552300, 237030863481657714104000, 237360838880720108982700,
  238151132266407092573000, 238310863481657714104000, 240331293210198335983000, 240370487250965447228600, 240461062951689036578500,
  240651223895480279988700, 240661362524916391977600, 240671167933901486446200, 240721293210198335983000, 241021004173022546366700,
  241071293210198335983000, 241181004173022546366700, 241201201581125148567600, 241631223895480279988700, 241781252663687525166700,
  241801252663687525166700, 241821201581125148567600, 241841201581125148567600, 241851252663687525166700, 242020675208532970725800,
  242070942055654452881000, 242120454171995880998000, 242131079203581986356000, 242230909264967076652100, 242300777017724171735000,
  242900909264967076652100, 243141079203581986356000, 243221167933901486446200, 243231001433125127555200, 243241073487740602361200]

def emitE56_1 : List Nat := [
  243280859481124252734000, 243301036715262589829400, 243410825461113579211400, 243470967400544533834900, 243520877321890000016000,
  243671106029980645824000, 243730877321890000016000, 243770971322615849163100, 243920971322615849163100, 243981106029980645824000,
  244021362524916391977600, 244051025795333393330300, 244181058072672619635300, 244250924322252924589400, 244330844909943134594800,
  244410817421071035407600, 244480654438126722899500, 244491073487740602361200, 244531040637333905157600, 244591073487740602361200,
  244711183348969469172100, 244781362524916391977600, 244940961791597868730500, 245011073487740602361200, 245151009888863930361500,
  245241098619183430451900, 245361167933901486446200, 245651085266044167999600, 245731048975494799062600, 245760806072875659708300,
  245771114034251413177600, 246041362524916391977600, 246051091719896281756700, 246130745354856650886100, 246150851930369001919600,
  246351098619183430451900, 246510954771172001405700, 246611362524916391977600, 246761068081018475333500, 246800915934104526519200,
  246870965495725036765500, 246941114034251413177600, 247001293210198335983000, 247241098619183430451900, 247351142802458658355700,
  247511058072672619635300, 247641068081018475333500, 247730840489333884145200, 247850782313078854271400, 247961293210198335983000,
  248000570953596453766000, 248011114034251413177600, 248171293210198335983000, 248190664053284380151100, 248470996168751779013000,
  248590951437529974646500, 248631293210198335983000, 248681062951689036578500, 248711362524916391977600, 248951122735389112140700,
  249071114034251413177600, 249130984105953000151600, 249171106029980645824000, 249301048975494799062600, 249420785692816812600500,
  249441122735389112140700, 249761362524916391977600, 249961062951689036578500, 250011167933901486446200, 250031058072672619635300,
  250100904028168524920500, 250330454171995880998000, 250790806072875659708300, 250860984105953000151600, 250880954771172001405700,
  251040753620428847293100, 251060801212105753170600, 251120598560687606176300, 251301252663687525166700, 251341085266044167999600,
  251360598560687606176300, 251401114034251413177600, 251421106029980645824000, 251431106029980645824000, 251510717005060057965400,
  251631122735389112140700, 251651025795333393330300, 251661293210198335983000, 251691106029980645824000, 251711114034251413177600,
  251760856265413089281000, 251931362524916391977600, 251951293210198335983000, 251961053420671056146100, 252000837822509175929000,
  252091167933901486446200, 252151106029980645824000, 252201362524916391977600, 252331183348969469172100, 252371201581125148567600,
  252390676984036530984850, 252400797980226627653900, 252420937675392187041700, 252520708855756632847100, 252530583869735749106500,
  252760723333205052717400, 252821223895480279988700, 252890969342353119545100, 252921167933901486446200, 252931293210198335983000,
  253071223895480279988700, 253081252663687525166700, 253110959989747318462800, 253141362524916391977600, 253201252663687525166700,
  253210945086189402414000, 253431068081018475333500, 253451001433125127555200, 253461068081018475333500, 253511293210198335983000,
  253710809185967519225500, 253751183348969469172100, 253801223895480279988700, 254061183348969469172100, 254240959989747318462800,
  254291183348969469172100, 254381044719533357183000, 254390593131183841050500, 254420850725535150302100, 254471362524916391977600,
  254541001433125127555200, 254751293210198335983000, 254801079203581986356000, 254900602434670437769400, 254941293210198335983000,
  254961223895480279988700, 254991068081018475333500, 255041132266407092573000, 255051167933901486446200, 255060742880503612525600,
  255090835739100485644700, 255110576390736831978800, 255120797627492575857000, 255131223895480279988700, 255521223895480279988700,
  255621053420671056146100, 255630850725535150302100, 255810855634496169954400, 255880737142035234430400, 256130593131183841050500,
  256221053420671056146100, 256701252663687525166700, 256711053420671056146100, 256740940574145874367000, 256881223895480279988700,
  257051062951689036578500, 257201252663687525166700, 257361044719533357183000, 257441293210198335983000, 257451293210198335983000,
  257580786950695033286400, 257651252663687525166700, 257710937675392187041700, 257730541024273115820200, 257781106029980645824000,
  257990945086189402414000, 258020534758300306827300, 258051223895480279988700, 258181001433125127555200, 258241223895480279988700,
  258300757080981765040600, 258360959989747318462800, 258441362524916391977600, 258501252663687525166700, 258540837822509175929000,
  258711362524916391977600, 258910809185967519225500, 258920940574145874367000, 259031044719533357183000, 259100811586082729180000,
  259130998766300419339000, 259150587592669925942100, 259181019126195943463000, 259190934858304490372100, 259281167933901486446200,
  259320875771471346419400, 259351062951689036578500, 259370895242032945787000, 259430920640855612318000, 259450914791234944157000,
  259470973342886580915000, 259550808791489690123900, 259720417888850281570400, 259730875771471346419400, 259860973342886580915000,
  259911167933901486446200, 260070550139490081386300, 260090878106207746118500, 260210946636608056010500, 260290832693179737174000,
  260320761398198951561500, 260390832693179737174000, 260411223895480279988700, 260451183348969469172100, 260590856900335857146800,
  260711058072672619635300, 260850636613303582267600, 260871044719533357183000, 260970956480615337335700, 261021106029980645824000,
  261261183348969469172100, 261310459284000043625500, 261441293210198335983000, 261490862803689015566100, 261781106029980645824000,
  261951293210198335983000, 262231015951326112005000, 262571252663687525166700, 262621068081018475333500, 263131293210198335983000,
  263541252663687525166700, 263600775595225078600200, 263671106029980645824000, 263711201581125148567600, 263761293210198335983000,
  263770543406315927698800, 263810786319778113960000, 263950853149896311301400, 263990420068490280403800, 264081223895480279988700,
  264121167933901486446200, 264260664424342319804700, 264320739280114736925400, 264341154580762223994100, 264350913661279418763600,
  264491252663687525166700, 264630626450926086149900, 264690588328126409909100, 264940913661279418763600, 265001122735389112140700,
  265120422619106764440100, 265501036715262589829400, 265790615104435742365100, 265970430292028999554600, 266091091719896281756700,
  266311293210198335983000, 266391252663687525166700, 266411252663687525166700, 266471223895480279988700, 266571122735389112140700,
  266791019126195943463000, 266800691961006905977350, 266811362524916391977600, 266960951437529974646500, 267231223895480279988700,
  268001362524916391977600, 268031223895480279988700, 268161022405178225762200, 268201001433125127555200, 268931293210198335983000,
  269890558094375692913800, 270481044719533357183000, 270831122735389112140700, 271331362524916391977600, 271380678898988664270900,
  271611293210198335983000, 271711019126195943463000, 271931252663687525166700, 272310664424342319804700, 272841223895480279988700,
  272981022405178225762200, 273961252663687525166700, 274020913661279418763600, 274260996168751779013000, 274311167933901486446200,
  274540981858667414945600, 274681223895480279988700, 274721167933901486446200, 274890996168751779013000, 274900898085826477840300,
  274911004173022546366700, 274930592949117336501500, 274941293210198335983000, 275060921852991665552300, 275111362524916391977600,
  275121362524916391977600, 275151025795333393330300, 275161223895480279988700, 275310897128881376225400, 275420617808080431973600,
  275440897128881376225400, 275531362524916391977600, 275671362524916391977600, 275701223895480279988700, 275731154580762223994100,
  275780739280114736925400, 276020737334528075388800, 276040855007534868594900, 276650842675213265395000, 276680875005184071862500,
  276830875005184071862500, 276870895242032945787000, 277000654102274182186100, 277140874244724133340500, 277191044719533357183000,
  277390984105953000151600, 277450998766300419339000, 277700660774302097852000, 277841201581125148567600, 277851201581125148567600,
  278011154580762223994100, 278271252663687525166700, 278330834204543518178800, 278350642781380982318600, 278441183348969469172100,
  278501252663687525166700, 278610531729661864875800, 278731252663687525166700, 278751252663687525166700, 278801132266407092573000,
  278910726394668634678100, 278991201581125148567600, 279151223895480279988700, 279270804930006077346000, 279451183348969469172100,
  279460811991762798741400, 279630398059710927785000, 279660937675392187041700, 279690595668805590387950, 279741044719533357183000,
  279790505831388060872500, 280100996168751779013000, 280141142802458658355700, 280200975404815301188500, 280230920640855612318000,
  280340963626511735550100, 280411114034251413177600, 280611154580762223994100, 280681132266407092573000, 280701167933901486446200,
  280821167933901486446200, 280851062951689036578500, 280961040637333905157600, 281391132266407092573000, 281650843229231302956500,
  281831362524916391977600, 281870889786134520743500, 281931032941229791544700, 282040505831388060872500, 282160566213710494048700,
  282341293210198335983000, 282970640707232551636900, 283041142802458658355700, 283221048975494799062600, 283351362524916391977600,
  283571085266044167999600, 283641132266407092573000, 283690864164254221144000, 283820988757954563640800, 283990988757954563640800,
  284021362524916391977600, 284311073487740602361200, 284360622891387011896800, 284791044719533357183000, 285070754074975084460500,
  285080754074975084460500, 285161167933901486446200, 285511154580762223994100, 286081201581125148567600, 286811201581125148567600,
  287481183348969469172100, 287790892476879812736000, 287811085266044167999600, 287830977510156220971800, 287960998766300419339000,
  287970801577736873481700, 287980801577736873481700, 288140930776105038346600, 288561132266407092573000, 288570698015819441413200,
  288581293210198335983000, 288601036715262589829400, 288661223895480279988700, 288950945086189402414000, 289001183348969469172100,
  289031362524916391977600, 289090851930369001919600, 289381032941229791544700, 289660848945072686951500, 290011036715262589829400,
  290170945086189402414000, 290280958219789608522600, 290311183348969469172100, 290871142802458658355700, 291000986404904822621400,
  291050851930369001919600, 291231183348969469172100, 291280977510156220971800, 291381362524916391977600, 291510456794342811265500]

def emitE56_2 : List Nat := [
  291901132266407092573000, 292111223895480279988700, 292290466580902030284600, 292330951437529974646500, 292550977510156220971800,
  292560880496759831474000, 292751293210198335983000, 292870890675029262468200, 293591252663687525166700, 293661223895480279988700,
  293761223895480279988700, 294221362524916391977600, 294251058072672619635300, 294541019126195943463000, 294681362524916391977600,
  295081058072672619635300, 295091362524916391977600, 295180743288667444490400, 295571019126195943463000, 295751362524916391977600,
  296150585671586299374300, 296160879693542661747500, 296770786634739004249600, 296940879693542661747500, 296991040637333905157600,
  297020377242352618587650, 298720585671586299374300, 299761085266044167999600, 299830679870394036318300, 299860349398879168577640,
  299920451031897674825200, 300050590257164745177300, 300111252663687525166700, 300281223895480279988700, 300311073487740602361200,
  300410750275635440539000, 300530785692816812600500, 300591252663687525166700, 300641167933901486446200, 300901201581125148567600,
  300970961791597868730500, 301030945086189402414000, 301230705998419388441500, 301490873490003569802200, 301710906090097245194000,
  301831058072672619635300, 302011019126195943463000, 302021019126195943463000, 302511293210198335983000, 302740945086189402414000,
  302840877321890000016000, 303211293210198335983000, 303320668502669480013800, 303331062951689036578500, 303431022405178225762200,
  303821362524916391977600, 304081293210198335983000, 304100911438965740292600, 304171079203581986356000, 304221223895480279988700,
  304230851930369001919600, 304240920640855612318000, 304280851930369001919600, 304311085266044167999600, 304351079203581986356000,
  304360920640855612318000, 304420649515065379419900, 304461362524916391977600, 304561068081018475333500, 304601362524916391977600,
  304651114034251413177600, 304950996168751779013000, 304960891571896260744300, 305261048975494799062600, 305610919443236507646200,
  305630592450136940797800, 305661223895480279988700, 305721252663687525166700, 306930845476516888162500, 307071106029980645824000,
  307190929451582363344500, 307211183348969469172100, 307400707131575989396500, 307651362524916391977600, 307720517419577500808400,
  307781223895480279988700, 308601293210198335983000, 308621183348969469172100, 308971362524916391977600, 309081183348969469172100,
  309520893390128169063200, 310140929451582363344500, 310181223895480279988700, 310281167933901486446200, 310340695702091550237340,
  310361004173022546366700, 310381167933901486446200, 310621223895480279988700, 310800928144374206609300, 310851293210198335983000,
  311050777592438397291700, 311190843229231302956500, 311501004173022546366700, 311630735994795118206650, 311651085266044167999600,
  311690800123165773243800, 311810828291491195496500, 311991068081018475333500, 312071183348969469172100, 312150769035496830018900,
  312161091719896281756700, 312270732998316248013000, 312370897128881376225400, 312431085266044167999600, 312460897128881376225400,
  312780828291491195496500, 312811091719896281756700, 312931293210198335983000, 312951293210198335983000, 313090769035496830018900,
  313500353234031747447070, 313540642856259308542600, 313591201581125148567600, 313610636121902102024700, 313631252663687525166700,
  313771293210198335983000, 314071293210198335983000, 314341252663687525166700, 314350928144374206609300, 314491362524916391977600,
  314560961791597868730500, 315050635007684446700500, 315480878896725696829900, 315611091719896281756700, 315720979660776743068000,
  315741167933901486446200, 316141167933901486446200, 316390595249126727726600, 316490492656809645816200, 316610824535181037931700,
  316800594046522039699200, 316840745773267303143500, 317261079203581986356000, 318001032941229791544700, 318051167933901486446200,
  318111079203581986356000, 318211362524916391977600, 318400878896725696829900, 318590958219789608522600, 318670580320515573415700,
  318811362524916391977600, 319181293210198335983000, 319341036715262589829400, 319461154580762223994100, 319751293210198335983000,
  320000914791234944157000, 320040929451582363344500, 320130975404815301188500, 320201183348969469172100, 320231079203581986356000,
  320250838880720108982700, 320260594738566324156500, 320340779336668663626000, 320470996168751779013000, 320661362524916391977600,
  320680486291612331743300, 320800943559442189335000, 320970800847806625320600, 321020594831201810169700, 321141201581125148567600,
  321470943559442189335000, 321731223895480279988700, 321781154580762223994100, 322180775313137444436100, 322211183348969469172100,
  322270988757954563640800, 322320806456753290424900, 322440589551383253472600, 322830853149896311301400, 322990921852991665552300,
  323020695321621845870900, 323051293210198335983000, 323171098619183430451900, 323401183348969469172100, 323620843229231302956500,
  323711167933901486446200, 323800878106207746118500, 323960699853141467075200, 324220929451582363344500, 324230594738566324156500,
  324260914791234944157000, 324311183348969469172100, 324331079203581986356000, 324350975404815301188500, 324371293210198335983000,
  324400838880720108982700, 324470775313137444436100, 324510589551383253472600, 324520486291612331743300, 324551183348969469172100,
  324561362524916391977600, 324630943559442189335000, 324670943559442189335000, 324720843229231302956500, 324730594831201810169700,
  324760800847806625320600, 324870878106207746118500, 324930699853141467075200, 325001223895480279988700, 325211183348969469172100,
  325340806456753290424900, 325360988757954563640800, 325380853149896311301400, 325410921852991665552300, 325530695321621845870900,
  325641167933901486446200, 325701293210198335983000, 325931154580762223994100, 326020656049013612797400, 326180605842068471144600,
  326220589069031956502100, 326240656049013612797400, 326291022405178225762200, 326501167933901486446200, 326540739673816032859300,
  326731223895480279988700, 326761362524916391977600, 326801223895480279988700, 326810807228957899816000, 327220762383428595862600,
  327241098619183430451900, 327631062951689036578500, 327690725022434409168000, 327710880496759831474000, 327890996168751779013000,
  327911004173022546366700, 328430917090186766626800, 328440819152716036553700, 328520697367729033004900, 328561058072672619635300,
  328581091719896281756700, 328790697367729033004900, 328821122735389112140700, 328870819152716036553700, 328930954771172001405700,
  328940917090186766626800, 329201293210198335983000, 329281293210198335983000, 329290721836917785046150, 329330953090460169767600,
  329431223895480279988700, 329460441801360689707200, 329601223895480279988700, 329610608835203435360700, 329740967400544533834900,
  329881362524916391977600, 330141091719896281756700, 330210794166939658109500, 330290608835203435360700, 330671252663687525166700,
  330731252663687525166700, 330801167933901486446200, 330811223895480279988700, 331041106029980645824000, 331441293210198335983000,
  331501048975494799062600, 331841091719896281756700, 332251167933901486446200, 332531362524916391977600, 332880753393928184207900,
  332891362524916391977600, 332901044719533357183000, 332931015951326112005000, 333101154580762223994100, 333220857539315667024000,
  333370718589879281967800, 333911009888863930361500, 333940943559442189335000, 334100594046522039699200, 334570993636970980584000,
  334691106029980645824000, 334951167933901486446200, 335101106029980645824000, 335390745773267303143500, 335901154580762223994100,
  336091132266407092573000, 336160768507791119934500, 336330649515065379419900, 336471098619183430451900, 337750859481124252734000,
  338290456794342811265500, 338530817421071035407600, 339001142802458658355700, 339450901012864707851700, 339760946636608056010500,
  339951223895480279988700, 340651167933901486446200, 341091114034251413177600, 342140768507791119934500, 342491132266407092573000,
  342550928144374206609300, 342771098619183430451900, 343841223895480279988700, 343850785692816812600500, 343891040637333905157600,
  343991183348969469172100, 344111293210198335983000, 344320830712917007556000, 346450830712917007556000, 347011201581125148567600,
  348021293210198335983000, 348800787585617801152300, 348851073487740602361200, 348920494169443528831400, 348931362524916391977600,
  349001252663687525166700, 349031252663687525166700, 349070772809529628303600, 349090791813889917090000, 349131073487740602361200,
  349151029304465374457300, 349170975404815301188500, 349200951437529974646500, 349351053420671056146100, 349890714367203464334550,
  350090747678086800212950, 350100939114265932251700, 350130733739060375799200, 350360975404815301188500, 350370733739060375799200,
  351860714367203464334550, 352061223895480279988700, 352150692945024686128400, 352220953090460169767600, 352420906090097245194000,
  352501154580762223994100, 352580932118407071560600, 352610776446294045391000, 352640837297573587314600, 352660837297573587314600,
  352680692945024686128400, 352700953090460169767600, 352720776446294045391000, 352730932118407071560600, 352801154580762223994100,
  352990723165840996914400, 353020928144374206609300, 353200928144374206609300, 353281362524916391977600, 353301362524916391977600,
  353360464394466896264100, 353381053420671056146100, 353401114034251413177600, 353420942055654452881000, 353440979660776743068000,
  353470651373704742362000, 353590630075918457124400, 353701029304465374457300, 353730419104549970503550, 353771132266407092573000,
  353800754531596882418700, 353861362524916391977600, 354080858829656150614800, 354130949811477887468500, 354260609102083764568650,
  354300572017631442111100, 354410614482085784556800, 354650926854033723018500, 354801223895480279988700, 354821252663687525166700,
  354881293210198335983000, 354891154580762223994100, 354920759938319009446200, 354941167933901486446200, 354980906090097245194000,
  355061154580762223994100, 355161223895480279988700, 355190881306480854736000, 355270753167939387464100, 355381106029980645824000,
  355420686136425535734150, 355631006990110243036300, 355691048975494799062600, 355751036715262589829400, 355841062951689036578500,
  355861252663687525166700, 356071362524916391977600, 356111122735389112140700, 356130834713450468926000, 356271025795333393330300,
  356570713149532406809000, 356721122735389112140700, 356761183348969469172100, 356860789840141633258000, 356951073487740602361200,
  356960671749388493764000, 357030708855756632847100, 357090926854033723018500, 357120896181006980771000, 357220706989227210911150]

def emitE56_3 : List Nat := [
  357311183348969469172100, 357450464394466896264100, 357461362524916391977600, 357500979660776743068000, 357511114034251413177600,
  357520942055654452881000, 357531183348969469172100, 357570651373704742362000, 357580671749388493764000, 357591053420671056146100,
  357621122735389112140700, 357631048975494799062600, 357681132266407092573000, 357700686136425535734150, 357720630075918457124400,
  357731036715262589829400, 357740419104549970503550, 357751029304465374457300, 357770713149532406809000, 357800949811477887468500,
  357821122735389112140700, 357840858829656150614800, 357850754531596882418700, 357861362524916391977600, 357931073487740602361200,
  357970572017631442111100, 358021293210198335983000, 358050614482085784556800, 358100609102083764568650, 358191154580762223994100,
  358221252663687525166700, 358230759938319009446200, 358251223895480279988700, 358280906090097245194000, 358291167933901486446200,
  358350896181006980771000, 358381154580762223994100, 358430881306480854736000, 358451106029980645824000, 358480753167939387464100,
  358501223895480279988700, 358511062951689036578500, 358551006990110243036300, 358591252663687525166700, 358740834713450468926000,
  358761362524916391977600, 358821025795333393330300, 358891183348969469172100, 360001114034251413177600, 360070900027635063550600,
  360080786950695033286400, 360091362524916391977600, 360101106029980645824000, 360120975404815301188500, 360150951437529974646500,
  360231058072672619635300, 360240850128518451651700, 360270432735589493573250, 360281098619183430451900, 360341252663687525166700,
  360361252663687525166700, 360390295313596964779770, 360511091719896281756700, 360601025795333393330300, 360621062951689036578500,
  360641001433125127555200, 360670993636970980584000, 360740954771172001405700, 360761053420671056146100, 360771142802458658355700,
  360920596137190521630500, 360930553914662825067600, 361041029304465374457300, 361151019126195943463000, 361271114034251413177600,
  361310975404815301188500, 361330920640855612318000, 361341053420671056146100, 361350786950695033286400, 361360954771172001405700,
  361371362524916391977600, 361381106029980645824000, 361390900027635063550600, 361410596137190521630500, 361420951437529974646500,
  361481098619183430451900, 361510850128518451651700, 361530432735589493573250, 361591252663687525166700, 361621252663687525166700,
  361631019126195943463000, 361640295313596964779770, 361721142802458658355700, 361751062951689036578500, 361761025795333393330300,
  361801001433125127555200, 361870553914662825067600, 361921029304465374457300, 361981293210198335983000, 362080984105953000151600,
  362150820029914643837400, 362291293210198335983000, 362751098619183430451900, 362910822708646240202400, 363051122735389112140700,
  363141362524916391977600, 363171062951689036578500, 363241142802458658355700, 363350915934104526519200, 363391025795333393330300,
  363671252663687525166700, 363941183348969469172100, 364271362524916391977600, 364930822708646240202400, 364951079203581986356000,
  365221079203581986356000, 365230748536461169352100, 365540901012864707851700, 365551142802458658355700, 365560918259790742946000,
  365570838880720108982700, 366170797627492575857000, 366550951437529974646500, 366640508219331297781200, 366761201581125148567600,
  366810692945024686128400, 367100901012864707851700, 367111142802458658355700, 367120918259790742946000, 367160692945024686128400,
  367330797627492575857000, 367530951437529974646500, 367550508219331297781200, 367581201581125148567600, 367660963626511735550100,
  367671167933901486446200, 367740871259427818372400, 367760959989747318462800, 367770991167709721546900, 367810963626511735550100,
  367830991167709721546900, 367851058072672619635300, 367861029304465374457300, 367931362524916391977600, 367981091719896281756700,
  368010726914150322388500, 368141122735389112140700, 368160688709666932381900, 368171223895480279988700, 368270864164254221144000,
  368281223895480279988700, 368300911438965740292600, 368311183348969469172100, 368420986404904822621400, 368430795192589674828400,
  368450953090460169767600, 368480684305710791298500, 368551142802458658355700, 368641073487740602361200, 368651004173022546366700,
  368671183348969469172100, 368701098619183430451900, 368730752045593150479200, 368791068081018475333500, 368801114034251413177600,
  368820920640855612318000, 368871201581125148567600, 368900495122317847675000, 368930949811477887468500, 368950933478972277138500,
  368960586350417926086400, 368981032941229791544700, 368990911438965740292600, 369140864164254221144000, 369230979660776743068000,
  369241293210198335983000, 369351362524916391977600, 369380566213710494048700, 369390688709666932381900, 369481091719896281756700,
  369580920640855612318000, 369601223895480279988700, 369631079203581986356000, 369781183348969469172100, 369830726914150322388500,
  369840752045593150479200, 369921252663687525166700, 370021362524916391977600, 370070979660776743068000, 370380925580131145275500,
  370511223895480279988700, 371090925580131145275500, 371171154580762223994100, 371291223895480279988700, 371681223895480279988700,
  371970545195572495354900, 372020736375747959873400, 372371025795333393330300, 372401293210198335983000, 372570945086189402414000,
  372660996168751779013000, 372911167933901486446200, 373131073487740602361200, 373191167933901486446200, 373220973342886580915000,
  373230973342886580915000, 373250998766300419339000, 373260875771471346419400, 373270590434391198299750, 373291223895480279988700,
  373961154580762223994100, 374921154580762223994100, 375041085266044167999600, 375321252663687525166700, 375590613416157038490100,
  375611223895480279988700, 375861048975494799062600, 376281122735389112140700, 376361025795333393330300, 376661183348969469172100,
  376781183348969469172100, 376791062951689036578500, 377091223895480279988700, 377820722998756580432700, 379411122735389112140700,
  379691154580762223994100, 380461154580762223994100, 380501122735389112140700, 380651183348969469172100, 380811122735389112140700,
  381341085266044167999600, 381440613416157038490100, 381450722998756580432700, 381521223895480279988700, 381551048975494799062600,
  381691062951689036578500, 381781183348969469172100, 382081223895480279988700, 382721154580762223994100, 382810961791597868730500,
  382900850725535150302100, 382911293210198335983000, 382960909264967076652100, 383211019126195943463000, 383640427697460585428000,
  383701167933901486446200, 383761154580762223994100, 383810961791597868730500, 383820772535181033728500, 383860850725535150302100,
  383881293210198335983000, 383920909264967076652100, 383931019126195943463000, 384051019126195943463000, 384311362524916391977600,
  384500820029914643837400, 384511252663687525166700, 384531293210198335983000, 384591098619183430451900, 384681009888863930361500,
  384691142802458658355700, 384770776161798832167900, 384981293210198335983000, 384991293210198335983000, 385001293210198335983000,
  385050951437529974646500, 385180906090097245194000, 385191053420671056146100, 385251252663687525166700, 385381362524916391977600,
  385551142802458658355700, 385560718430262328685600, 385700951437529974646500, 385900936256928687846100, 385980773084632965492500,
  386201154580762223994100, 386221223895480279988700, 386260735994795118206650, 386270936256928687846100, 386320875005184071862500,
  386340892476879812736000, 386461114034251413177600, 386470979660776743068000, 386510590257164745177300, 386561223895480279988700,
  386630943559442189335000, 387061098619183430451900, 387121098619183430451900, 387381058072672619635300, 387541032941229791544700,
  387610458049123273327200, 387741293210198335983000, 388990912543949358951000, 389110348361122796291700, 389141006990110243036300,
  389181201581125148567600, 389280883775742113773000, 389301362524916391977600, 389311223895480279988700, 389570879693542661747500,
  389710897128881376225400, 390001122735389112140700, 390060580320515573415700, 390151122735389112140700, 390191073487740602361200,
  390301006990110243036300, 390341201581125148567600, 390381122735389112140700, 390391223895480279988700, 390411362524916391977600,
  390440883775742113773000, 390570897128881376225400, 390761073487740602361200, 390800858829656150614800, 391081223895480279988700,
  391180858829656150614800, 391281223895480279988700, 391311091719896281756700, 391341091719896281756700, 391351122735389112140700,
  391511201581125148567600, 391661142802458658355700, 391780883775742113773000, 391840986404904822621400, 391920813218772057922800,
  392080949811477887468500, 392771201581125148567600, 392801142802458658355700, 393020949811477887468500, 393401132266407092573000,
  393471114034251413177600, 393611073487740602361200, 393811362524916391977600, 394381293210198335983000, 394490855007534868594900,
  394721048975494799062600, 395110481359691577273450, 395321132266407092573000, 395361114034251413177600, 395391073487740602361200,
  395501362524916391977600, 395541022405178225762200, 395640481359691577273450, 395691293210198335983000, 395750855007534868594900,
  396361183348969469172100, 396401362524916391977600, 397170550139490081386300, 397191019126195943463000, 398540986404904822621400,
  400920986404904822621400, 401800934858304490372100, 404811223895480279988700, 404830934858304490372100, 405721362524916391977600,
  406641142802458658355700, 406700698015819441413200, 406801114034251413177600]

def emitE57_0 : List Nat := [
  368070000000000000000000, 369420000000000000000000]

def emitE60_0 : List Nat := [
  201020130984600904908100, 215680537887276328689200, 216020468572558272694600, 229090139504602572976200, 240500108461536846574180,
  305280426191133595058500, 326100215114732314170840, 326310215114732314170840, 338790426191133595058500]

def emitE62_0 : List Nat := [
  199780721276201872555000, 199951023318690486991200, 199970774828025508191200, 200290582646765760565900, 200440798189510626341700,
  200460521922382068098100, 200480931689617299575800, 200560709769268894076260, 200640763049721942552850, 201130649551728658654400,
  201420537337450050824000, 201640821828388432764700, 202620723745463131592100, 202780954003972430996700, 203020803596232753369200,
  203390342194252626861900, 203810623498620320071400, 204150669222758083259800, 204981092633408542985800, 205230723745463131592100,
  207251092633408542985800, 207990617274389432349300, 208090609005217847838000, 208180617274389432349300, 208340673667934340343160,
  208400746059818263013150, 208460723745463131592100, 208520660884597189354700, 209080982772179676174900, 209120656962525874026600,
  209140560821409158564150, 209190523260194662715800, 209280543327264208930900, 209321092633408542985800, 209370546674857128569900,
  209400982772179676174900, 209550714214445151159600, 209560714214445151159600, 209610469585263785137600, 209981023318690486991200,
  209990721276201872555000, 210381092633408542985800, 210470669222758083259800, 211870670682638025375100, 212431092633408542985800,
  212460711967159565953800, 212481092633408542985800, 212540392782444317925600, 212770763049721942552850, 213060734281514697374800,
  213120734281514697374800, 213261092633408542985800, 213310954003972430996700, 213330690098239469470800, 213380982772179676174900,
  213610701431108000171100, 213870616416015063210100, 214021092633408542985800, 214350746059818263013150, 214640572232739835306250,
  214720648368282893954100, 214741023318690486991200, 214760809312074137364000, 214800697509036684843050, 214830828727675581459900,
  215050749234688094471100, 215120954003972430996700, 215130726277243930021100, 215340653188493075741850, 215350610605251982482100,
  215740599908040027265250, 216171092633408542985800, 216210679919970038476600, 216280630136127214558700, 216290779083986950070800,
  216440913457461620180300, 216530803596232753369200, 216580788181164770643400, 216710623498620320071400, 216910788181164770643400,
  217000589589616403742200, 217040664966796641380200, 217360844142743564185800, 217560707618648371979900, 217990954003972430996700,
  218620774828025508191200, 218840669222758083259800, 219120931689617299575800, 219160803596232753369200, 219340690098239469470800,
  219430684879664152413800, 219740913457461620180300, 219901092633408542985800, 220400913457461620180300, 220470931689617299575800,
  220750544569516208786600, 220990913457461620180300, 221081023318690486991200, 221210798189510626341700, 221320684879664152413800,
  221490931689617299575800, 221651023318690486991200, 221990793060181187586600, 222180770745826056165700, 222280766823754740837500,
  222380703451378731923100, 222780593590149865112200, 222910593590149865112200, 223120540888118896515000, 223200265376347700495430,
  223511023318690486991200, 223740982772179676174900, 223910913457461620180300, 224460793060181187586600, 225300540487316756761200,
  226040872910950809363800, 226150599186015229916600, 226970821828388432764700, 227390616416015063210100, 227501023318690486991200,
  227680862374899243581300, 227880821828388432764700, 228100770745826056165700, 228230852843881263148700, 228250504580109902915700,
  228330746059818263013150, 228520872910950809363800, 228690884689254375002100, 229090347567328921831800, 229491092633408542985800,
  230570703451378731923100, 230680755903825544338400, 231130783529163207154200, 231590815374536319007600, 232730815374536319007600,
  233880788181164770643400, 234330746059818263013150, 234390821828388432764700, 234500734281514697374800, 234540501825114726092600,
  234810693735003886558300, 234900742982652396337700, 235250634136660675928500, 235260501825114726092600, 235670420732093104459800,
  236130755903825544338400, 236180803596232753369200, 236370872910950809363800, 236520803596232753369200, 237550739997356081369600,
  237840585742988320962600, 237890898042393637454400, 238030705513307452196700, 238530898042393637454400, 238960709769268894076260,
  239400898042393637454400, 239920709769268894076260, 240130599186015229916600, 240520530593321971270700, 240860828727675581459900,
  241200742982652396337700, 241620982772179676174900, 241780862374899243581300, 241790593590149865112200, 241850862374899243581300,
  241890597050702782859700, 242131092633408542985800, 242470898042393637454400, 242750844142743564185800, 243220597757419505168900,
  243520595652078585385700, 243670872910950809363800, 243690693735003886558300, 243730595652078585385700, 243750809312074137364000,
  243780809312074137364000, 243980872910950809363800, 244030646042596677527400, 244200752513670376770300, 244250931689617299575800,
  244641092633408542985800, 244940649551728658654400, 245150872910950809363800, 245301023318690486991200, 245370554643673188939800,
  245550525990739731742500, 245730746059818263013150, 245760913457461620180300, 245910686589107488343850, 245960931689617299575800,
  246130803596232753369200, 246180913457461620180300, 246230705513307452196700, 246460523260194662715800, 246580523260194662715800,
  246650723745463131592100, 246910815374536319007600, 246970809312074137364000, 247080552817138391210400, 247221023318690486991200,
  247360479946490131567200, 247510844142743564185800, 247940716513396973629500, 248080815374536319007600, 248200774828025508191200,
  248220728874792570347200, 248260779083986950070800, 248590884689254375002100, 248670788181164770643400, 249080803596232753369200,
  249200815374536319007600, 250030844142743564185800, 250260884689254375002100, 250310815374536319007600, 250320643769771569771800,
  250640809312074137364000, 250790913457461620180300, 251500844142743564185800, 251690723745463131592100, 251961023318690486991200,
  251970718866446714648900, 252380774828025508191200, 252400749234688094471100, 252890726277243930021100, 253150913457461620180300,
  253611092633408542985800, 253841023318690486991200, 254020643769771569771800, 254230836138472796832100, 254630605113676222870600,
  255360913457461620180300, 255621023318690486991200, 256450809312074137364000, 257331092633408542985800, 257580643769771569771800,
  257780723745463131592100, 258800803596232753369200, 259180641547457891300800, 259550872910950809363800, 259640604353216284348700,
  259720737098602394044400, 260010656962525874026600, 260030678319935903832500, 260050678319935903832500, 260120703451378731923100,
  260320746059818263013150, 260410711967159565953800, 260870355736368323506400, 261031023318690486991200, 261140718866446714648900,
  261260609005217847838000, 261430809312074137364000, 261570884689254375002100, 261790536565245441433000, 262300684879664152413800,
  262630605879963497427500, 263361023318690486991200, 263540655688623296283600, 263550982772179676174900, 263810734281514697374800,
  263910650749347763325900, 264060872910950809363800, 264070691900090019738640, 264200954003972430996700, 264290590905424861493300,
  264340679919970038476600, 264650670682638025375100, 264940714214445151159600, 264950982772179676174900, 265430954003972430996700,
  267580884689254375002100, 267810670682638025375100, 268620663587464428146700, 269461092633408542985800, 269700501825114726092600,
  269741023318690486991200, 271380931689617299575800, 271920954003972430996700, 272251092633408542985800, 274910686589107488343850,
  274980862374899243581300, 275150798189510626341700, 275750759412957525465300, 276040449984562797216600, 276680647198678917634900,
  276830647198678917634900, 277540588290896851061100, 277690707618648371979900, 277840520274898347747700, 277850520274898347747700,
  277880982772179676174900, 278130884689254375002100, 278330705513307452196700, 278890898042393637454400, 279000852843881263148700,
  279050684879664152413800, 279150579053564837959600, 279220872910950809363800, 279340649551728658654400, 279410798189510626341700,
  279580707618648371979900, 279730852843881263148700, 279850636198589396202150, 279870836138472796832100, 280241023318690486991200,
  280340599186015229916600, 280510752513670376770300, 280521092633408542985800, 280630766823754740837500, 280701092633408542985800,
  280920546674857128569900, 281070555569605730219500, 281141092633408542985800, 281290490774087093362300, 281330872910950809363800,
  281360543327264208930900, 281540852843881263148700, 281650669222758083259800, 281720872910950809363800, 282180982772179676174900,
  282220636198589396202150, 282870714214445151159600, 283160569522546857527100, 283420828727675581459900, 283630669222758083259800,
  283690783529163207154200, 283720618140195706660740, 283780507126216322743100, 283830913457461620180300, 283851023318690486991200,
  284040749234688094471100, 284140507126216322743100, 284151023318690486991200, 284220659560074514352700, 284250611414973005744000,
  284480728874792570347200, 284510766823754740837500, 284590755903825544338400, 284870763049721942552850, 284970852843881263148700,
  285000684879664152413800, 285161092633408542985800, 285360913457461620180300, 285380690098239469470800, 285480755903825544338400,
  285520770745826056165700, 286110836138472796832100, 286290714214445151159600, 286980898042393637454400, 287010884689254375002100,
  287030763049721942552850, 287530872910950809363800, 287770913457461620180300, 287790734281514697374800, 287890759412957525465300,
  287960670682638025375100, 287990691900090019738640, 288140728874792570347200, 288470686589107488343850, 288570862374899243581300,
  288650766823754740837500, 288660633121423529526800, 288720788181164770643400, 288790798189510626341700, 288880640454550838081700,
  289070634136660675928500, 289090479728387536931200, 289820348267040231426650, 290060884689254375002100, 290300982772179676174900,
  290660627237373527233450, 290740803596232753369200, 290870714214445151159600, 290880709769268894076260, 291050479728387536931200,
  291340872910950809363800, 291450634136660675928500, 291580691900090019738640, 291900913457461620180300, 291970766823754740837500,
  292110633121423529526800, 292330884689254375002100, 292450793060181187586600, 292550731541617278563300, 294080602105930699142800,
  294690703451378731923100, 296160809312074137364000, 296940809312074137364000, 297810726277243930021100, 297910602105930699142800,
  298010770745826056165700, 298640672164146603889200, 299830548391637490806400, 300080656962525874026600, 300640597757419505168900,
  300700646042596677527400, 300900648368282893954100, 300950763049721942552850, 300970684879664152413800, 301400759412957525465300]

def emitE62_1 : List Nat := [
  301420779083986950070800, 301620884689254375002100, 301960779083986950070800, 302460626289499131779100, 302490788181164770643400,
  302501092633408542985800, 303031092633408542985800, 303060884689254375002100, 303150783529163207154200, 303220783529163207154200,
  303311023318690486991200, 303330368855589350641470, 303400244145749549016330, 303431023318690486991200, 303530766823754740837500,
  303610737098602394044400, 303620766823754740837500, 304060821828388432764700, 304080651961483816560400, 304100872910950809363800,
  304270554643673188939800, 304330755903825544338400, 304420587008828008155000, 304470872910950809363800, 304520573894827958910300,
  304950763049721942552850, 305110606652168106818600, 305660954003972430996700, 305990606652168106818600, 306340783529163207154200,
  306970703451378731923100, 307010475463348801894300, 308280788181164770643400, 308600670682638025375100, 308620821828388432764700,
  308871092633408542985800, 310770550138406794845500, 311670662226899222568800, 311680815374536319007600, 311710662226899222568800,
  311790931689617299575800, 311920821828388432764700, 312830746059818263013150, 313370746059818263013150, 313510618140195706660740,
  313540608214699897126600, 314060618140195706660740, 314710620783521413476300, 314910809312074137364000, 315720770745826056165700,
  316801023318690486991200, 317160809312074137364000, 317511092633408542985800, 317560608214699897126600, 318000954003972430996700,
  318580749234688094471100, 318950746059818263013150, 319320836138472796832100, 319460524616147641279000, 319610982772179676174900,
  319670660884597189354700, 319980852843881263148700, 320040498616283270942600, 320050411069409535552600, 320270620783521413476300,
  320280737098602394044400, 320340739997356081369600, 320470639373459227660100, 320480728874792570347200, 320700862374899243581300,
  320801023318690486991200, 320850779083986950070800, 321140774828025508191200, 321470982772179676174900, 321560739997356081369600,
  321600523597463110579750, 321891092633408542985800, 321910527034227461000500, 322330844142743564185800, 322420982772179676174900,
  322720755903825544338400, 323110647198678917634900, 323230836138472796832100, 324160852843881263148700, 324180411069409535552600,
  324220498616283270942600, 324290737098602394044400, 324390620783521413476300, 324540728874792570347200, 324570755903825544338400,
  324580862374899243581300, 324630982772179676174900, 324671023318690486991200, 324770779083986950070800, 324961092633408542985800,
  325010527034227461000500, 325030836138472796832100, 325080739997356081369600, 325110523597463110579750, 325200982772179676174900,
  325310844142743564185800, 325330647198678917634900, 326540954003972430996700, 327220763049721942552850, 327360669222758083259800,
  328230982772179676174900, 328820862374899243581300, 329820695604217187773600, 329990691900090019738640, 330300931689617299575800,
  330320828727675581459900, 330330828727675581459900, 330410852843881263148700, 330500650749347763325900, 330670759412957525465300,
  330730759412957525465300, 331260852843881263148700, 331390650749347763325900, 331470828727675581459900, 331500602105930699142800,
  331930828727675581459900, 332610931689617299575800, 332670788181164770643400, 332681023318690486991200, 332880660884597189354700,
  332900355736368323506400, 333240815374536319007600, 333910386414245314330170, 333920872910950809363800, 333930872910950809363800,
  333940982772179676174900, 333950714214445151159600, 333990714214445151159600, 334101023318690486991200, 334570592912181166574300,
  334640931689617299575800, 334850670682638025375100, 334871092633408542985800, 335090766823754740837500, 335100632116389944176600,
  335381092633408542985800, 335510766823754740837500, 335790463476494587153700, 335890809312074137364000, 335920638303930315985400,
  336330587008828008155000, 336390803596232753369200, 336960844142743564185800, 337210770745826056165700, 337250770745826056165700,
  337751092633408542985800, 338310663587464428146700, 338530629160509720022200, 339050913457461620180300, 339450598469166282055300,
  339800670682638025375100, 340130650749347763325900, 340280728874792570347200, 340850913457461620180300, 340910809312074137364000,
  341570663587464428146700, 342530650749347763325900, 343111092633408542985800, 343380766823754740837500, 343840982772179676174900,
  343890821828388432764700, 345780821828388432764700, 345880803596232753369200, 345930913457461620180300, 347010721276201872555000,
  348370931689617299575800, 348470913457461620180300, 349090560821409158564150, 349490669222758083259800, 350180669222758083259800,
  350640637245719382931700, 350990779083986950070800, 351280779083986950070800, 353281092633408542985800, 353650734281514697374800,
  356040774828025508191200, 357220572232739835306250, 357670734281514697374800, 358570774828025508191200, 359470755903825544338400,
  360281092633408542985800, 361481092633408542985800, 361961092633408542985800, 362030678319935903832500, 362110783529163207154200,
  362340862374899243581300, 362750483728920998301200, 362920667783884338049800, 364130844142743564185800, 364280667783884338049800,
  364540898042393637454400, 364610752513670376770300, 364811092633408542985800, 365750658252866357617350, 367190658252866357617350,
  367710563302926070536500, 367930517694109952160450, 368080662226899222568800, 368280596348945516995100, 368340774828025508191200,
  368360688328281759530700, 368550913457461620180300, 368791092633408542985800, 368900649551728658654400, 368950484183467235468600,
  369020644899727095165100, 369200714214445151159600, 369470954003972430996700, 369530693735003886558300, 369600596348945516995100,
  369620913457461620180300, 369650693735003886558300, 369930662226899222568800, 370020517694109952160450, 370080644899727095165100,
  370300716513396973629500, 370570607430382151024100, 372190737098602394044400, 372210931689617299575800, 372901023318690486991200,
  373060766823754740837500, 373250554183902264076900, 382630416244917686742260, 382710416244917686742260, 382750511220355360479100,
  382900644899727095165100, 383780511220355360479100, 383860644899727095165100, 383930693735003886558300, 384690763049721942552850,
  385340852843881263148700, 385440506554786196399100, 385550763049721942552850, 385770506554786196399100, 385900640454550838081700,
  385960726277243930021100, 385970705513307452196700, 386200679919970038476600, 386270640454550838081700, 386420649551728658654400,
  386460642652441509959300, 386710872910950809363800, 387010862374899243581300, 387240862374899243581300, 387280759412957525465300,
  387380560332410629144900, 387450666365420838854200, 387480666365420838854200, 387540872910950809363800, 389140681546022125654600,
  389350803596232753369200, 390030815374536319007600, 390300681546022125654600, 390470803596232753369200, 390720815374536319007600,
  390870709769268894076260, 391000770745826056165700, 391080701431108000171100, 391220709769268894076260, 391250770745826056165700,
  391280701431108000171100, 393210809312074137364000, 393610690098239469470800, 394720602105930699142800, 395390690098239469470800,
  395920632116389944176600, 396400721276201872555000, 397190693735003886558300, 397290607430382151024100, 400231092633408542985800,
  401581092633408542985800, 405990582646765760565900, 406350577304249093207800, 406430503745612709697700, 406440503745612709697700,
  406570420852939040616650, 406690716513396973629500, 406700862374899243581300, 406740821828388432764700, 407230766823754740837500,
  407780628194318628848500, 407840628194318628848500]

/-- The rows of `('E', tag)`, for the 64 tags. -/
def emitE : List (List (List Nat)) := [
  [emitE0_0, emitE0_1, emitE0_2, emitE0_3],
  [emitE1_0],
  [],
  [emitE3_0],
  [emitE4_0, emitE4_1],
  [],
  [emitE6_0],
  [emitE7_0, emitE7_1],
  [emitE8_0],
  [],
  [emitE10_0],
  [],
  [emitE12_0],
  [],
  [emitE14_0],
  [emitE15_0, emitE15_1, emitE15_2, emitE15_3, emitE15_4, emitE15_5, emitE15_6],
  [emitE16_0],
  [emitE17_0, emitE17_1, emitE17_2],
  [emitE18_0],
  [],
  [emitE20_0, emitE20_1, emitE20_2, emitE20_3, emitE20_4],
  [emitE21_0],
  [emitE22_0, emitE22_1],
  [],
  [emitE24_0],
  [emitE25_0, emitE25_1, emitE25_2, emitE25_3, emitE25_4, emitE25_5, emitE25_6, emitE25_7, emitE25_8, emitE25_9, emitE25_10],
  [],
  [emitE27_0, emitE27_1, emitE27_2, emitE27_3, emitE27_4, emitE27_5, emitE27_6, emitE27_7, emitE27_8, emitE27_9, emitE27_10, emitE27_11, emitE27_12],
  [emitE28_0, emitE28_1],
  [emitE29_0, emitE29_1, emitE29_2],
  [emitE30_0, emitE30_1, emitE30_2, emitE30_3],
  [emitE31_0],
  [emitE32_0, emitE32_1, emitE32_2, emitE32_3, emitE32_4],
  [emitE33_0],
  [emitE34_0],
  [emitE35_0],
  [emitE36_0],
  [],
  [emitE38_0],
  [],
  [emitE40_0],
  [emitE41_0],
  [emitE42_0],
  [emitE43_0],
  [],
  [emitE45_0],
  [],
  [],
  [],
  [],
  [],
  [],
  [emitE52_0, emitE52_1, emitE52_2, emitE52_3, emitE52_4, emitE52_5, emitE52_6, emitE52_7, emitE52_8],
  [emitE53_0],
  [],
  [emitE55_0],
  [emitE56_0, emitE56_1, emitE56_2, emitE56_3],
  [emitE57_0],
  [],
  [],
  [emitE60_0],
  [],
  [emitE62_0, emitE62_1],
  []]

end Jieba.PosData
