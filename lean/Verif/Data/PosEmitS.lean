import Verif.Model.Basic
/-!
# jieba/posseg/prob_emit.py: the states with 'S'

Generated, in the order of the file.  An entry `'c': -x` is written as one number, `code point * 10^19 + x * 10^17`; long rows are
written as several lists.
-/

namespace Jieba.PosData

def emitS0_0 : List Nat := [
  199850709355258108606300, 200050607418966407209400, 200370501390097743717340, 200471348211398663169200, 200480586238977284902200,
  200540793303790173647300, 203020364369843083927950, 203390611630114942222000, 204260763567521157396800, 204310860691666343054000,
  204390678138287708388200, 205000898230431630142700, 205180838836378582493000, 205510554831711181628150, 205590588321352976028300,
  206580841951895360472600, 206670643025836367579900, 207250780194137761462500, 208070651044538190590300, 208400413131626196025400,
  209190523332325293527900, 209280520038999622030200, 209340560623482713538300, 209371209581962551180100, 209820651044538190590300,
  209850710538703873306600, 209930926260628145558600, 211550846483414981676900, 212200749566198134725500, 212431278896680607174700,
  212481278896680607174700, 214020568605601231557000, 214760494747388161173400, 216880773911079882221000, 217091278896680607174700,
  221960607418966407209400, 222781008091660496953800, 222911008091660496953800, 223510549153710488777000, 223620744185927535427900,
  225330744185927535427900, 227500549153710488777000, 228230202499725849004260, 228550858427418668078200, 229040766500282666848900,
  229090263881450718006370, 229370682796146644847400, 229490726950789088017400, 230140766500282666848900, 230470943906271879714300,
  232730746839883058889100, 233080943906271879714300, 233960662881489344561500, 234540508821901155994900, 234850499455560034514600,
  234940565367762747410700, 235000568482271308422000, 235060719984723973568600, 235260508821901155994900, 235320499455560034514600,
  235670296206336571839170, 235690406883277065882000, 235740624938085045407700, 240390701596926239407300, 240460494747388161173400,
  240690767097299365499200, 241010767097299365499200, 241910534267346475708400, 242910534267346475708400, 243671022401744861021000,
  243690540094820890626000, 243750424027494759613900, 243780424027494759613900, 243981022401744861021000, 244940650950773532993900,
  245550395966725829320470, 246180620624938608516000, 246230729384986354910300, 246940626834567851305100, 248010626834567851305100,
  248080738628942419946800, 249080675348537354699100, 249100879998275950747400, 249200738628942419946800, 249300589988479235523100,
  250420752627661716686200, 250780752627661716686200, 251530677037359157551200, 253030834045043012903300, 260120989859504817558300,
  260320281957447864790100, 260870505178672823711700, 260890415372394788169500, 260970697334484966001100, 261030818379662008365600,
  261060676915778595462300, 261260491213860977648600, 261271348211398663169200, 261310530628497791709550, 262620475806924067822300,
  262630740447174328265900, 262740741137625862920300, 262921018627712062736300, 263360818379662008365600, 264080832882239213391400,
  264340745142872637042950, 265800979323453251775600, 268340645302642248203000, 271380586238977284902200, 274260678879031836174400,
  274890678879031836174400, 274981278896680607174700, 275310644508637194541700, 275440644508637194541700, 279631278896680607174700,
  279640827262783379027200, 279730599718370334203050, 279850735088749714855200, 279870658440904350305700, 280730787631192033569500,
  280921209581962551180100, 281290632359998930237200, 281360520038999622030200, 281450397107660512623400, 281540599718370334203050,
  281650439348937333960600, 282120758496011899495200, 282220735088749714855200, 282870653225753163092000, 283100560623482713538300,
  283850479636015367153800, 283890881867489251962600, 284150479636015367153800, 285440787631192033569500, 286110658440904350305700,
  286290653225753163092000, 286510881867489251962600, 287840926260628145558600, 287890621668426337774000, 288660785449287294105600,
  288720652747512175070500, 289021238350169796358300, 289090444922704005260400, 289660725953771856032400, 290331238350169796358300,
  290430869462224384964700, 290870651987052236548600, 291050444922704005260400, 292110785449287294105600, 292820667639143321470700,
  293430900477717215348700, 294081348211398663169200, 294200697632992650346400, 294670851230068705569200, 295440697632992650346400,
  295720731250325414023600, 299800694397416286402300, 300210741137625862920300, 301300783313974847048660, 301400743948115294931100,
  301620777500372188281650, 301710597937577587684100, 301960806601358442727300, 302460656837663597200800, 302500879998275950747400,
  303030879998275950747400, 303060777500372188281650, 303330464894285360882700, 307010492801044119535800, 307020727755622406300250,
  308280559716104087187900, 308620703322459248483500, 311550929245924460526700, 311670738403970446545300, 311710738403970446545300,
  312320656937116613851700, 312640812082182092226800, 312830606093645803629850, 313370606093645803629850, 313510623931606383793700,
  313540480093294511000500, 313640599662237860093800, 314020827262783379027200, 314060623931606383793700, 315280787631192033569500,
  318950579733004310890800, 319340571315794209336050, 319610920544786761563700, 319670890740300812830900, 319761209581962551180100,
  320050442620766796257400, 320200615105368141306000, 320321011481815664521900, 320390567176130290740300, 320430626467055493516000,
  320470657736321666985500, 320480539293830779413150, 321600566087190310813500, 321910765906809114867400, 322020567176130290740300,
  323051348211398663169200, 324180442620766796257400, 324310615105368141306000, 324371348211398663169200, 324540539293830779413150,
  325010765906809114867400, 325110566087190310813500, 326701348211398663169200, 326941030406015628374700, 327690346387019679737570,
  329330992676592514227900, 329600733578472896279500, 329820674514702862983700, 330300752627661716686200, 330390696149285907299650,
  330810733578472896279500, 331040747576082702996000, 331250754986879918368200, 332111030406015628374700, 332260874591553823719700,
  332470696149285907299650, 332610685804875883179900, 332900505178672823711700, 333910750069977537721200, 333950754457778154926650,
  333990754457778154926650, 335100565009980612622350, 335380739761457355652100, 336430795268489912026900, 340130607237203255076900,
  340930795268489912026900, 341800580656798409384400, 342530607237203255076900, 345420998560642516521200, 348500838836378582493000,
  348750998560642516521200, 354880712600632593580100, 358020712600632593580100, 360200564811764492223200, 360421014990947645649000,
  360680737955539201812400, 361450737955539201812400, 361490564811764492223200, 361561014990947645649000, 362750510028243314613100,
  365750582011642772980000, 366290520571928176838600, 367190582011642772980000, 367310520571928176838600, 367710963196638492163400,
  368020959029368852106700, 368170396098555348925350, 368280446973686743942200, 368310638291224307860000, 369600446973686743942200,
  369780638291224307860000, 370340633376824273162500, 372210779513863029187300, 372401034661977070254200, 372451008091660496953800,
  372760709355258108606300, 373171008091660496953800, 373250427930188107630100, 373260781568729851926050, 373890794872449790417250,
  375550800565043470018300, 380450794872449790417250, 381600800565043470018300, 382630338466455614493500, 382710338466455614493500,
  383460668752740575519300, 384200668752740575519300, 384520605496985322307700, 384970714883435849200200, 385050633849638392757100,
  385120605496985322307700, 385700633849638392757100, 385900422108050033999100, 386200745142872637042950, 386270422108050033999100,
  387280621668426337774000, 387380560055406957479400, 387450772321221275441200, 387480772321221275441200, 389111278896680607174700,
  389180670789010027407800, 390031153620383757637800, 390340670789010027407800, 390721153620383757637800, 391650721301770292543100,
  392310916462587309538200, 392620871142936216602800, 392810721301770292543100, 393060916462587309538200, 393070871142936216602800,
  393210536093074455286440, 394790835815000722843300, 395780835815000722843300, 396400268997414952536600, 397400836412017421493700,
  398540710538703873306600, 400920710538703873306600, 406430499827077489700900, 406440499827077489700900, 406550885714117334742200,
  406570460125037676433650, 407780614909097224521200, 407840614909097224521200]

def emitS1_0 : List Nat := [
  207250547058858748849000, 223620638687931936264500, 225330638687931936264500, 228550598141421125448100, 238530322987889821253170,
  239400322987889821253170, 240390200485268468876350, 247130175701652078418210, 248080513411635086727700, 249100638687931936264500,
  249200513411635086727700, 262630382192996190110800, 262920598141421125448100, 283890201112229770235860, 286510201112229770235860,
  299760382192996190110800, 301960598141421125448100, 320320708002649992259100, 325970095753369040820420, 368370266118589212599230]

def emitS2_0 : List Nat := [
  200160376951880073917700, 200290698266395089839250, 201611031486846107359600, 202480327784084638732050, 204610602440901992520600,
  205200684913255827387000, 206250962172128051365200, 207310492579673125709600, 207450602440901992520600, 207780327784084638732050,
  208000353154326046963660, 208870593284182639971500, 209320579307988402455600, 209840499185848193518800, 211550782996181128559600,
  211870484259778740212200, 211910791697318827522600, 213290459128335912121600, 213610681836089960711600, 213850921625617240548700,
  214260921625617240548700, 216960870543054863949600, 218680650820597130327700, 218920646472085936353800, 219270962172128051365200,
  219590650820597130327700, 228391031486846107359600, 228550289010669925038800, 228820557867001267910100, 231130630753527584112600,
  234210526501245382406000, 234900559636958977850200, 235060370014286086983600, 235180852310899184554100, 235210452797107970688900,
  237890533813471865302300, 238030465190798093765100, 238150921625617240548700, 240400371228056888426000, 241880422129869102846100,
  241890522727212584121200, 241960921625617240548700, 242230760681825997138600, 242650434616090108823100, 242900760681825997138600,
  243220852310899184554100, 243570588405166223028300, 243960588405166223028300, 244320504701030201026900, 244940665130681494395050,
  245480636362474249217000, 246080467651379173985100, 246460630753527584112600, 246580630753527584112600, 246740404577217736733500,
  246850419237565155921000, 246990760681825997138600, 247090962172128051365200, 247420962172128051365200, 247470921625617240548700,
  247540667728230134721100, 248130622052389885149600, 248160623733101716787700, 248270760681825997138600, 248720921625617240548700,
  249040442322424924782500, 249100767581113145833800, 249220622052389885149600, 249360892857409995370700, 249741031486846107359600,
  250001031486846107359600, 250220801228336807955000, 250620522727212584121200, 253050527144334415435000, 253700538039452794290500,
  257110538039452794290500, 259350339025606502503700, 259581031486846107359600, 261260586052116482008900, 261570892857409995370700,
  261911031486846107359600, 262220836895831201828200, 262341031486846107359600, 262570598413512078726600, 262860644366745016570600,
  263640441223512767223000, 263910811764388373737800, 264800962172128051365200, 264830681836089960711600, 268620962172128051365200,
  270540389813617856127070, 274490748165511701738100, 274650644366745016570600, 274940653067882715533500, 274950578226896792034050,
  275130622052389885149600, 278030575052026960576100, 279050465887665025374400, 279150358743673622274130, 279650962172128051365200,
  279780811764388373737800, 280090498214966780822800, 281140579307988402455600, 281390471644650207522200, 281470527144334415435000,
  282180603820234205754150, 282370499185848193518800, 285000465887665025374400, 286090811764388373737800, 287840588405166223028300,
  287960823542691939376100, 287990548655472377129500, 288610594542060860657500, 288650646472085936353800, 289490921625617240548700,
  290040472015708147175800, 290290921625617240548700, 291180594542060860657500, 291520811764388373737800, 291570448592284346338900,
  291580548655472377129500, 291970646472085936353800, 292451031486846107359600, 294210437733225599117050, 294330437733225599117050,
  297120538761477591639200, 297950538761477591639200, 300640852310899184554100, 301420962172128051365200, 302400640284545564545000,
  305660419457104212264650, 306990791697318827522600, 307030791697318827522600, 308050454342733794358100, 308870727034602335017300,
  308890454342733794358100, 310770731913618751960550, 311680311369757779191800, 311690321072436808606950, 314690622052389885149600,
  314910436422590848587000, 317160436422590848587000, 319831031486846107359600, 320100646472085936353800, 320270507312144601395400,
  324390507312144601395400, 325970612521371904717100, 326410628951677033844700, 326480628951677033844700, 327360852310899184554100,
  327450823542691939376100, 328740577157367880359300, 328800577157367880359300, 331400760681825997138600, 332190622052389885149600,
  332981031486846107359600, 333920648622706458450200, 333930648622706458450200, 334590717937424514444700, 335790462789310473377700,
  336350389813617856127070, 336740921625617240548700, 336960791697318827522600, 337250852310899184554100, 340740694757263108712300,
  343840583753164659539000, 349280392462779400824700, 350640422582358562675100, 350820727034602335017300, 354160670395054842937200,
  354370553574496796206700, 354430389487353292645400, 355590456229582224796400, 357900670395054842937200, 358090553574496796206700,
  358140389487353292645400, 358560456229582224796400, 359200376951880073917700, 359460389977150190200100, 360070407070156040986000,
  360660962172128051365200, 361010603820234205754150, 361320962172128051365200, 361390407070156040986000, 361840603820234205754150,
  361960530423316697734100, 362591031486846107359600, 364230962172128051365200, 368050588405166223028300, 368370782996181128559600,
  368660592041930640115800, 369200580400895455674700, 369440801228336807955000, 369450648622706458450200, 369530473513863508737500,
  369650473513863508737500, 369690592041930640115800, 369950811764388373737800, 370000731913618751960550, 371450494889244605174600,
  372190575052026960576100, 372550401041965865161600, 376700921625617240548700, 381820921625617240548700, 384510962172128051365200,
  384750646472085936353800, 384760533813471865302300, 385180852310899184554100, 385250962172128051365200, 385340892857409995370700,
  385970373284332218077040, 388600569974794423233700, 388870569974794423233700, 389290437469720835316500, 389710486813108940728700,
  390370437469720835316500, 390570486813108940728700, 391380811764388373737800, 392690811764388373737800, 393330717937424514444700,
  394230823542691939376100, 395090525862265572528800, 395560525862265572528800, 395670823542691939376100, 402510650820597130327700,
  405110650820597130327700, 405990698266395089839250, 406740870543054863949600]

def emitS3_0 : List Nat := [
  247540098587721930903100, 279780080829019959718840, 286090080829019959718840, 314690170777381315496220]

def emitS4_0 : List Nat := [
  201800610635305633997800, 208440484893241757062900, 211030167506951303078160, 214070192875325481890640, 227970535913865450975700,
  228990205076744026361140, 246350138785418504488360, 275970353839164840845000, 279150784095411172808450, 300070293540502249380530,
  321150591643515265408800, 323170138785418504488360, 324750591643515265408800, 350880524514676590664200, 373260442262044782294200,
  373290198949690747386600, 382870857184162027087700, 383840857184162027087700, 384510446349300996475900, 385250446349300996475900,
  385960458001262157437150, 386040433550794326079400]

def emitS5_0 : List Nat := [
  272250194591014905531350, 361190015415067982725836, 361890015415067982725836]

def emitS6_0 : List Nat := [
  199880429271920112568900, 200060246594929379215600, 202940225078419694270960, 205040696011298432860400, 206451057851036340412000,
  207951057851036340412000, 214500287713430977760700, 216440074874709595525160, 227970646400013158742600, 241820246594929379215600,
  247990878675089417606600, 251100249305781150831060, 259250462859145221131300, 260820448544234951602500, 262800749762028150982300,
  289821185944420886618500, 323051185944420886618500, 324371185944420886618500, 327800199937577044770020, 335031152297197224497300,
  335090423258164765457150, 344290461150928847451350, 386140461150928847451350]

def emitS7_0 : List Nat := [
  199810217074046899341900, 199870666651274992648200, 199941369825400868961000, 200450894036273568385400, 200630221440726122004900,
  200810594098903152366900, 200980594098903152366900, 201140745408710802587400, 201270976642837596528300, 201340543659843639858600,
  201650503315818734987700, 201730449252424927111000, 202840689752730246599550, 204150427171413963364900, 205590639205823653627300,
  205980837037783990002800, 206770503315818734987700, 208080480749925817821660, 208490496144347573572100, 208770393540878595594770,
  209150706427789699026200, 209610663392242266537600, 210170426521018222762100, 210180570632348883713300, 210290550250651987796200,
  210350550250651987796200, 210630426521018222762100, 210830570632348883713300, 211530784318208648718200, 211911278196327681545500,
  212090784318208648718200, 212470788861114333393100, 213330583942017234765400, 213640406894017858047100, 213710406894017858047100,
  213820904429365853208700, 214480298661788289902970, 214820346253534325381730, 218070793463153367739200, 219340583942017234765400,
  223430463902726638318900, 227970667627758561744900, 228260470955831190390100, 229160865482889177036300, 234251190649453946155500,
  234511067782912254524800, 235271190649453946155500, 235580286148095690346470, 235590286148095690346470, 235600666651274992648200,
  235780607070961820110600, 235880697442156786840200, 236010235157204790077930, 236490750486954671904450, 236500750486954671904450,
  236820687062477418675800, 240500372437789243155400, 241200539128814332103500, 243570883071955823402800, 243960883071955823402800,
  244560380863721183927330, 244660754552131398550600, 244940726772840404494800, 245170589563594524693800, 245300874595429160631700,
  245730631457515795074700, 246560705316303918396600, 246880784175044701574500, 247990785181523363188600, 248400720072515491734800,
  251650399590392720507700, 254020714005620587734100, 260590743580858085325800, 261260687496788633392250, 262420724857378808793500,
  262830724857378808793500, 263560393604204351143540, 263660456592923369816600, 263680390349374414526200, 264100491524099167872650,
  264970558183693589540500, 269891369825400868961000, 269970558183693589540500, 270100869095761585886900, 274420622859983575748200,
  274910418906909705553500, 275110904429365853208700, 275261095741398476441000, 275300892756938422394500, 275951021701391935391700,
  276270958738014451629900, 277040745214724320804700, 277700706427789699026200, 277940413209405849567000, 278090413209405849567000,
  281760673838077544536600, 284720673838077544536600, 293050609585267302379100, 293690783320338643728700, 293780767844498857248500,
  294080794409532670834200, 294200771305907459522300, 294670695891738133243600, 294940783320338643728700, 295440771305907459522300,
  299950904906693728474400, 299970889014297870482800, 300530629732804118020300, 303420580095753609372500, 304520526716351632678400,
  304560498237390639315300, 304950523256466014048800, 308300705251305541067500, 309060705251305541067500, 312450645652962330437850,
  313500910313415855502000, 313610752864327619815400, 314550607607941387198700, 320040430313676334440750, 320390730717476715163900,
  320660716519217914888350, 320850667538592260696800, 322020730717476715163900, 324220430313676334440750, 324560716519217914888350,
  324770667538592260696800, 329930924390671243610200, 333910890246346309286800, 335030996058439040624100, 337070690422749503581600,
  343940702495604092195600, 343950702495604092195600, 345420780522953439488000, 348750780522953439488000, 354061244549104019424100,
  356410810354262908777100, 357651244549104019424100, 358800810354262908777100, 359120687062477418675800, 362340520781555458219200,
  366110397096678594250000, 367390397096678594250000, 367930516548278731005350, 368240285149305294943960, 368450854785677221819500,
  369300623661361648103500, 369960285149305294943960, 370020516548278731005350, 371170268812812914025000, 372390889833974590900700,
  387500633592604749228000, 389200628337996787280900, 389280708151970342476800, 389350637938295009049400, 390350628337996787280900,
  390440708151970342476800, 390470637938295009049400, 395190888606965331719100, 395880888606965331719100, 407780736319975719155100,
  407840736319975719155100]

def emitS9_0 : List Nat := [
  204650167871483448396150, 204950492130718596947900, 211530636369101374041300, 211930823549319064200300, 212090636369101374041300,
  212900492130718596947900, 213270628958304158669100, 213300731920245876784900, 213320628958304158669100, 218920442883070087168400,
  227970361543439216016170, 229930644373372141394900, 231130438534558893194500, 241840570976454633374900, 243430243488653135026300,
  290220653074509840357900, 294690615605164896216800, 299780046421524532436750, 301420593290809764795850, 304100552744298953979400,
  320320556134454121547500, 366260485110292729623000, 367400485110292729623000]

def emitS10_0 : List Nat := [
  215050584078699564848900, 215880584078699564848900, 216060412698906789014600, 216240347522710349305500, 216700317355878906653400,
  216830704475979997442450, 217100204529780647629430, 217340159730429542267420, 217690166102955557825800, 218630814337208864253400,
  219030350864310041289860, 219080522560135655825500, 219560438217197294897250, 219920310967152161528260, 219960353820190265444300,
  219990178293354200880330, 220030349898118950116200, 220380814337208864253400, 220400745022490808258900, 220750496531825829458900,
  220790363802223793665420, 220990745022490808258900, 221140479346800136793000, 221230500787787271338500, 221270349898118950116200,
  221910525300033074637000, 260440627156991174094300, 274490814337208864253400, 294630745022490808258900, 318580584078699564848900,
  354740517295762307283400, 358300517295762307283400]

def emitS12_0 : List Nat := [
  199780147945374376630220, 199790234536859097567300, 199960425339221727106500, 200130154204470598230480, 208390305361781636626700,
  208690305361781636626700, 210210436045312442854200, 210690270325208049383960, 212710426869732831296500, 213350400715350972016600,
  214910531832724037194800, 215180207056458489238100, 228060350092845955470060, 240380519759173726229700, 242130476116440355016600,
  244600207056458489238100, 260490571921973191333950, 264110485484988762748900, 264810425339221727106500, 350410267739197593248960,
  351990418665809599606900, 373240267739197593248960, 382910397115306522891500, 383880397115306522891500]

def emitS13_0 : List Nat := [
  199840782707589886488600, 199890622455842927536000, 201770730255143074073400, 203110726254609612703500, 203250644943960048811100,
  203420940261225962330500, 203470958493381641726000, 203500958493381641726000, 203690805887751292221000, 203720750549227473742400,
  203930889178663585731500, 203941009575944018325000, 203960678765248158710750, 204540761085279039525000, 204580805887751292221000,
  204920691770560983530500, 205200899714715151514200, 205240848632152774915000, 205260879647645605299000, 205520635808982189988200,
  206060842178300661157800, 206490667258315180232000, 206810644943960048811100, 206940728234872342321450, 207100769786416738488000,
  207120842178300661157800, 207170516609320862066200, 207380678765248158710750, 207420700471698682493500, 207430940261225962330500,
  207440889178663585731500, 207470761085279039525000, 207560761085279039525000, 207571009575944018325000, 207910805887751292221000,
  207940667258315180232000, 208210848632152774915000, 208220619042542290590200, 208230619042542290590200, 208810632683727839577800,
  209250848632152774915000, 209880679992257417892200, 210060889178663585731500, 210140686363838856502900, 210370911493018717152400,
  210430889178663585731500, 210550889178663585731500, 210600911493018717152400, 211320889178663585731500, 211390722407981529923850,
  211540855531439923610100, 211640678765248158710750, 211650819863945529737000, 211820599036504177456500, 212000705123700245982700,
  212060769786416738488000, 212070769786416738488000, 212320730255143074073400, 212330855531439923610100, 212860607040774944810100,
  212930607040774944810100, 213470633455932448968800, 213580638218737347894300, 213701050122454829141500, 213890619042542290590200,
  214010619042542290590200, 214110682492387638433900, 214280682492387638433900, 214300745670211056799200, 214710693169185181004450,
  214990743317161315779800, 215220776038452436621400, 215880980807736773147000, 216220671703491437315400, 216910810332927549304400,
  217170679992257417892200, 217210836115838479514500, 217240889178663585731500, 217590824993274968492000, 217871050122454829141500,
  218020980807736773147000, 218110801631789850341500, 218451050122454829141500, 218680889178663585731500, 218690819863945529737000,
  218830716902003811621100, 218890855531439923610100, 219190753081008272171400, 219500726254609612703500, 219560879647645605299000,
  219590889178663585731500, 219640706723734380626900, 219890776038452436621400, 219940738770923908104000, 220140789853486284703200,
  220280703548864549168850, 220310776038452436621400, 220441050122454829141500, 221180679992257417892200, 221300836115838479514500,
  221560889178663585731500, 221950726254609612703500, 222080819863945529737000, 222810670573535911922000, 222821050122454829141500,
  223161009575944018325000, 223180779317434718920500, 223190819863945529737000, 223310810332927549304400, 223480855531439923610100,
  223790980807736773147000, 223810899714715151514200, 223870703548864549168850, 223950940261225962330500, 223960911493018717152400,
  224060848632152774915000, 224121009575944018325000, 224190674002443259785300, 224330782707589886488600, 224360879647645605299000,
  224410879647645605299000, 224450656939891556708900, 224520980807736773147000, 224791050122454829141500, 224820830399997095519600,
  224840694587648680200150, 224850862942237138982400, 224900824993274968492000, 224930842178300661157800, 224970656939891556708900,
  225090789853486284703200, 225111119437172885136000, 225161119437172885136000, 225201119437172885136000, 225250621763798643078600,
  225380879647645605299000, 225390659925187871677000, 225530766801120423519900, 225570824993274968492000, 225580830399997095519600,
  225600842178300661157800, 225960728234872342321450, 226050980807736773147000, 226291119437172885136000, 226560848632152774915000,
  226650899714715151514200, 226820980807736773147000, 227250653093263473929300, 227460848632152774915000, 228200738770923908104000,
  228210543232034607118400, 228440924846157979604700, 228490700471698682493500, 228500732317071794346900, 228640732317071794346900,
  228720786216721867615700, 228890700471698682493500, 229350645817328045686500, 229470980807736773147000, 229540848632152774915000,
  229550611296736386689800, 229620924846157979604700, 229940736573033236226600, 230050793627519082987800, 230480899714715151514200,
  230720940261225962330500, 230750718703854361889000, 231430748079966214705300, 232100745670211056799200, 232150611296736386689800,
  232210980807736773147000, 232240691770560983530500, 232280745670211056799200, 232520621076510714302400, 232550848632152774915000,
  232560801631789850341500, 232600879647645605299000, 232640755678556912497400, 232750801631789850341500, 232810797549590398316000,
  233180657925121201010100, 233210797549590398316000, 233380621076510714302400, 233460741018209493309900, 233480718703854361889000,
  233720899714715151514200, 233870569311351830663350, 233970793627519082987800, 234450668351222233451000, 234490724312801026993300,
  234610698967910946039400, 234800572210105517988600, 235181050122454829141500, 235340608842625495078000, 236110701998445895572300,
  236320789853486284703200, 236410672846361019677700, 236510870946507906336000, 236540911493018717152400, 236560911493018717152400,
  236740836115838479514500, 236880958493381641726000, 236930940261225962330500, 237040810332927549304400, 237050889178663585731500,
  237080750549227473742400, 237140621076510714302400, 237150615741912643773100, 237230621763798643078600, 237330741018209493309900,
  237350638218737347894300, 237410814984929112793700, 237450551079196151267900, 237480728234872342321450, 237620755678556912497400,
  237800738770923908104000, 237820691770560983530500, 237860584251359537529400, 237960810332927549304400, 238100623854467125010000,
  238110726254609612703500, 238140763902366736194700, 238210726254609612703500, 238330730255143074073400, 238380801631789850341500,
  238440683766290216176800, 238540755678556912497400, 238820682492387638433900, 238830456633035267182750, 238990797549590398316000,
  239010753081008272171400, 239130579620902733360750, 239160738770923908104000, 239240681234509417747900, 239370753081008272171400,
  239380677553112105476300, 239590623854467125010000, 239650958493381641726000, 239680738770923908104000, 239750728234872342321450,
  239880889178663585731500, 239910736573033236226600, 240180691770560983530500, 240470848632152774915000, 240480848632152774915000,
  240610644943960048811100, 240810745670211056799200, 240840824993274968492000, 241230741018209493309900, 241320763902366736194700,
  241520741018209493309900, 241580758345381620713600, 241920654998082970998750, 242030578272567699632050, 242240701998445895572300,
  242290728234872342321450, 242430980807736773147000, 242730940261225962330500, 242740836115838479514500, 242830889178663585731500,
  242960687688361531505000, 242970700471698682493500, 242980700471698682493500, 243110436782650529476700, 243210706723734380626900,
  243621119437172885136000, 243711119437172885136000, 243800652154289438945400, 244060814984929112793700, 244080691770560983530500,
  244210470061788899967400, 244220470061788899967400, 244500879647645605299000, 245010685056630699767700, 245080819863945529737000,
  245570940261225962330500, 245581009575944018325000, 245740924846157979604700, 245820766801120423519900, 245861050122454829141500,
  245890855531439923610100, 246010824993274968492000, 246030706723734380626900, 246190855531439923610100, 246360627439080302323600,
  246390879647645605299000, 246410568498339222338340, 246420793627519082987800, 246660625989779572066850, 246791050122454829141500,
  246960766801120423519900, 246980667258315180232000, 247070924846157979604700, 247160722407981529923850, 247300750549227473742400,
  247311009575944018325000, 247331009575944018325000, 247490924846157979604700, 247510703548864549168850, 247560685056630699767700,
  247890782707589886488600, 248110736573033236226600, 248380726254609612703500, 248450743317161315779800, 248460772863582605163400,
  248700782707589886488600, 248750782707589886488600, 248840766801120423519900, 248870667258315180232000, 248940924846157979604700,
  249060629653192890044900, 249251009575944018325000, 249270766801120423519900, 249470924846157979604700, 249490710002716662926000,
  249700736573033236226600, 249780782707589886488600, 249890958493381641726000, 250030703548864549168850, 250150715132046101681100,
  250350753081008272171400, 250360879647645605299000, 250370713392871830494100, 250410848632152774915000, 250440713392871830494100,
  250550627439080302323600, 250590848632152774915000, 250870502058562494942300, 251241009575944018325000, 251290924846157979604700,
  251320924846157979604700, 251500730255143074073400, 251551119437172885136000, 252900750549227473742400, 253340805887751292221000,
  253520726254609612703500, 253740730255143074073400, 253781050122454829141500, 254010862942237138982400, 254110911493018717152400,
  254490958493381641726000, 254790681234509417747900, 254820980807736773147000, 254861009575944018325000, 255340660940425018078900,
  255400836115838479514500, 255420724312801026993300, 255860889178663585731500, 256160862942237138982400, 256380631156980626498900,
  256520664049483725081900, 256630660940425018078900, 256691009575944018325000, 257090824993274968492000, 257320848632152774915000,
  257501119437172885136000, 257591050122454829141500, 257870730255143074073400, 258080889178663585731500, 258160814984929112793700,
  258260581909332116719600, 258601009575944018325000, 258780848632152774915000, 259290810332927549304400, 259630763902366736194700,
  260510659925187871677000, 260520726254609612703500, 260540676355493000804700, 260660761085279039525000, 260960789853486284703200,
  261120763902366736194700, 261150879647645605299000, 261330643219779405360500, 261610738770923908104000, 261640730255143074073400,
  261660848632152774915000, 261960724312801026993300, 261990801631789850341500, 262070694587648680200150, 262090836115838479514500,
  262240836115838479514500, 262310736573033236226600, 262440810332927549304400, 262470600698592301060500, 262690819863945529737000,
  263020814984929112793700, 263080724312801026993300, 263310766801120423519900, 263320663002353738352400, 263450842178300661157800,
  263590738770923908104000, 263780779317434718920500, 263840745670211056799200, 263890355424855615599670, 264440718703854361889000,
  264510634234146493174300, 264740848632152774915000, 264920801631789850341500, 265070683766290216176800, 265200889178663585731500]

def emitS13_1 : List Nat := [
  265330819863945529737000, 265350911493018717152400, 265361009575944018325000, 265490889178663585731500, 265610980807736773147000,
  265840715132046101681100, 265850772863582605163400, 265890889178663585731500, 265940814984929112793700, 266080911493018717152400,
  266330648484152753902600, 266340706723734380626900, 266980879647645605299000, 267070501022283791387800, 267090848632152774915000,
  267220805887751292221000, 267240708349786467804950, 267270738770923908104000, 267400805887751292221000, 267430899714715151514200,
  267670980807736773147000, 267760911493018717152400, 268180682492387638433900, 268381009575944018325000, 268730705123700245982700,
  268760980807736773147000, 268810520290718174337800, 268960958493381641726000, 269110958493381641726000, 269121009575944018325000,
  269430667258315180232000, 269670734422412714130200, 269790730255143074073400, 269840805887751292221000, 270000689030663564719100,
  270120710002716662926000, 270150772863582605163400, 270530644943960048811100, 270570879647645605299000, 270630551419911983429300,
  270710708349786467804950, 270730793627519082987800, 270820686363838856502900, 270990622455842927536000, 271040805887751292221000,
  271111009575944018325000, 271120520290718174337800, 271170610677539361897600, 271590710002716662926000, 271980748079966214705300,
  272070654041137869383700, 272370899714715151514200, 272811119437172885136000, 272920738770923908104000, 272960824993274968492000,
  273070793627519082987800, 273230622455842927536000, 273260980807736773147000, 273550648484152753902600, 273570958493381641726000,
  273670805887751292221000, 273700819863945529737000, 273710899714715151514200, 273720772863582605163400, 273790706723734380626900,
  273860682492387638433900, 274140710002716662926000, 274620726254609612703500, 274810705123700245982700, 275190675172047236104400,
  275210675172047236104400, 275220940261225962330500, 275240830399997095519600, 275470814984929112793700, 275620980807736773147000,
  276030669456205852109500, 276060753081008272171400, 276261119437172885136000, 276350899714715151514200, 276530736573033236226600,
  276640518801856924962750, 276690940261225962330500, 276720701998445895572300, 276740720538768228708600, 276810697486402367525400,
  276900685056630699767700, 277050679992257417892200, 277280911493018717152400, 277321119437172885136000, 277400666177223569810500,
  277640518555854340876500, 277660691770560983530500, 277960732317071794346900, 278170789853486284703200, 278560924846157979604700,
  278620855531439923610100, 278701050122454829141500, 278830911493018717152400, 278950830399997095519600, 278980758345381620713600,
  279080805887751292221000, 279160638218737347894300, 279181009575944018325000, 279290889178663585731500, 279430848632152774915000,
  279471009575944018325000, 279570862942237138982400, 279610611919791361753300, 279710848632152774915000, 279760772863582605163400,
  279810779317434718920500, 279860776038452436621400, 280000547078662689897900, 280150755678556912497400, 280250848632152774915000,
  280280635808982189988200, 280490615741912643773100, 280520629653192890044900, 280620559966034924952100, 280640705123700245982700,
  280750705123700245982700, 281030643219779405360500, 281180521043544816417000, 281250634234146493174300, 281260602958575492784600,
  281280690391228770296900, 281330604687725203790700, 281500559966034924952100, 281720604687725203790700, 281770814984929112793700,
  281860660940425018078900, 282030819863945529737000, 282430741018209493309900, 282440789853486284703200, 282540772863582605163400,
  282550650302384662221660, 282670697486402367525400, 282940706723734380626900, 282960789853486284703200, 283030698967910946039400,
  283190789853486284703200, 283270745670211056799200, 283371009575944018325000, 283380755678556912497400, 283430899714715151514200,
  283660724312801026993300, 283670761085279039525000, 283710805887751292221000, 283840889178663585731500, 283860958493381641726000,
  284080776038452436621400, 284580814984929112793700, 284810553837991803150800, 285100605857329180109900, 285140700471698682493500,
  285400782707589886488600, 285430705123700245982700, 285520736573033236226600, 285530924846157979604700, 285560980807736773147000,
  285570842178300661157800, 285760814984929112793700, 285900779317434718920500, 285980638218737347894300, 286100745670211056799200,
  286170615094661193211400, 286321050122454829141500, 286400637409016324632400, 286680758345381620713600, 286770958493381641726000,
  286980889178663585731500, 286990615094661193211400, 287110830399997095519600, 287250745670211056799200, 287290647587285755626600,
  287400889178663585731500, 287510710002716662926000, 287650710002716662926000, 287920610062152804459800, 288000789853486284703200,
  288050797549590398316000, 288440734422412714130200, 288490761085279039525000, 288510722407981529923850, 288650793627519082987800,
  289080842178300661157800, 289470689030663564719100, 289770708349786467804950, 290040640687998606931400, 290260911493018717152400,
  290360789853486284703200, 291090599036504177456500, 291400879647645605299000, 291660769786416738488000, 291771119437172885136000,
  291800842178300661157800, 291970793627519082987800, 292240761085279039525000, 292320643219779405360500, 292430674002443259785300,
  292610671703491437315400, 292660626711804369415600, 292700755678556912497400, 292720671703491437315400, 292941119437172885136000,
  293340824993274968492000, 293791119437172885136000, 294231119437172885136000, 294431050122454829141500, 294840810332927549304400,
  294890810332927549304400, 294950793627519082987800, 295020842178300661157800, 295170836115838479514500, 295220722407981529923850,
  295461119437172885136000, 295471050122454829141500, 295490644078153774499550, 295620644078153774499550, 295660527279330920754500,
  295850889178663585731500, 296400870946507906336000, 296471119437172885136000, 296570836115838479514500, 296690879647645605299000,
  296711050122454829141500, 296730879647645605299000, 296820663002353738352400, 297060722407981529923850, 297110610677539361897600,
  297230664049483725081900, 297360889178663585731500, 297380722407981529923850, 297400899714715151514200, 297420745670211056799200,
  297440814984929112793700, 297590663002353738352400, 297830924846157979604700, 297870862942237138982400, 298050810332927549304400,
  298250651224050172714100, 298310686363838856502900, 298330610677539361897600, 298350635018464239276900, 298590889178663585731500,
  298640911493018717152400, 299181119437172885136000, 299200745670211056799200, 299400842178300661157800, 299510705123700245982700,
  299650911493018717152400, 299710789853486284703200, 299770656939891556708900, 300140666177223569810500, 300160819863945529737000,
  300270830399997095519600, 300300848632152774915000, 300430761085279039525000, 300680652154289438945400, 300790637409016324632400,
  300830658920154286326900, 300870652154289438945400, 300910720538768228708600, 301060776038452436621400, 301120899714715151514200,
  301130805887751292221000, 301150625272930624205600, 301320911493018717152400, 301410701998445895572300, 301571050122454829141500,
  301660940261225962330500, 302070782707589886488600, 302080569311351830663350, 302100940261225962330500, 302210805887751292221000,
  302290848632152774915000, 302310911493018717152400, 302320700471698682493500, 302331119437172885136000, 302380911493018717152400,
  302611050122454829141500, 302660700471698682493500, 302680940261225962330500, 302710678765248158710750, 302750980807736773147000,
  302960899714715151514200, 303000899714715151514200, 303170678765248158710750, 303190836115838479514500, 303470655964274062172500,
  303610862942237138982400, 303720911493018717152400, 304020638218737347894300, 304130797549590398316000, 304710862942237138982400,
  304891119437172885136000, 304980879647645605299000, 305010743317161315779800, 305020743317161315779800, 305170889178663585731500,
  305440862942237138982400, 305450700471698682493500, 305541009575944018325000, 305580862942237138982400, 305890911493018717152400,
  305920924846157979604700, 306051009575944018325000, 306261009575944018325000, 306400824993274968492000, 306520700471698682493500,
  306530779317434718920500, 307100563754366715182300, 307200776038452436621400, 307370750549227473742400, 307480750549227473742400,
  307580726254609612703500, 307610724312801026993300, 307640889178663585731500, 307770720538768228708600, 307980628171684311530850,
  308000664049483725081900, 308060736573033236226600, 308200736573033236226600, 308260639035068411810400, 308550728234872342321450,
  308670758345381620713600, 308740779317434718920500, 308750651224050172714100, 308851119437172885136000, 308930776038452436621400,
  308980686363838856502900, 309051050122454829141500, 309320776038452436621400, 309510651224050172714100, 309590563754366715182300,
  309810870946507906336000, 310400597401590377303600, 310590940261225962330500, 310630720538768228708600, 310660696026522425410100,
  310680730255143074073400, 310710743317161315779800, 310740793627519082987800, 310790980807736773147000, 310870724312801026993300,
  310980819863945529737000, 311140940261225962330500, 311180724312801026993300, 311430801631789850341500, 311620879647645605299000,
  312030734422412714130200, 312130980807736773147000, 312340862942237138982400, 312350848632152774915000, 312670741018209493309900,
  312870632683727839577800, 313080741018209493309900, 313440748079966214705300, 313660805887751292221000, 314040701998445895572300,
  314050743317161315779800, 314110755678556912497400, 314140743317161315779800, 314620583778545417934800, 314850682492387638433900,
  314920713392871830494100, 314960621076510714302400, 315030708349786467804950, 315090722407981529923850, 315250671703491437315400,
  315310682492387638433900, 315340660940425018078900, 315390734422412714130200, 315500743317161315779800, 315590748079966214705300,
  315640940261225962330500, 315760911493018717152400, 315781009575944018325000, 315840940261225962330500, 315910722407981529923850,
  315980753081008272171400, 316010889178663585731500, 316020924846157979604700, 316110924846157979604700, 316320940261225962330500,
  316370540135812046721700, 316540980807736773147000, 316550755678556912497400, 316560810332927549304400, 316810824993274968492000,
  316910755678556912497400, 316971119437172885136000, 317060940261225962330500, 317220958493381641726000, 317311009575944018325000,
  317400814984929112793700, 317440980807736773147000, 317590924846157979604700, 317661050122454829141500, 317750697486402367525400]

def emitS13_2 : List Nat := [
  317791119437172885136000, 317820703548864549168850, 318080758345381620713600, 318360810332927549304400, 318490743317161315779800,
  318890665107694658135600, 318930653093263473929300, 319010736573033236226600, 319020797549590398316000, 319060805887751292221000,
  319370703548864549168850, 319430836115838479514500, 319441009575944018325000, 319590924846157979604700, 319650703548864549168850,
  319860736573033236226600, 320060758345381620713600, 320090694587648680200150, 320190652154289438945400, 320490879647645605299000,
  320500848632152774915000, 320580772863582605163400, 320600801631789850341500, 320630793627519082987800, 320640776038452436621400,
  321190958493381641726000, 321310743317161315779800, 321340769786416738488000, 321360758345381620713600, 321990567691883238665300,
  322150734422412714130200, 322300625989779572066850, 322410801631789850341500, 322460701998445895572300, 322490622455842927536000,
  322650660940425018078900, 322660659925187871677000, 322730686363838856502900, 322860636605799154905900, 322870748079966214705300,
  323100958493381641726000, 323150715132046101681100, 323380705123700245982700, 323540753081008272171400, 323671050122454829141500,
  323770830399997095519600, 323860589106682079228400, 323920661966075034797800, 323940879647645605299000, 324080924846157979604700,
  324110724312801026993300, 324170758345381620713600, 324250879647645605299000, 324270694587648680200150, 324460652154289438945400,
  324480772863582605163400, 324490848632152774915000, 324500879647645605299000, 324590801631789850341500, 324600776038452436621400,
  324620830399997095519600, 324640793627519082987800, 324800769786416738488000, 324810743317161315779800, 324880758345381620713600,
  325130567691883238665300, 325150734422412714130200, 325190622455842927536000, 325230753081008272171400, 325240625989779572066850,
  325270701998445895572300, 325290801631789850341500, 325370660940425018078900, 325390748079966214705300, 325430636605799154905900,
  325450627439080302323600, 325460659925187871677000, 325470686363838856502900, 325560661966075034797800, 325590705123700245982700,
  325631050122454829141500, 325650924846157979604700, 325960672846361019677700, 326000824993274968492000, 326070782707589886488600,
  326160789853486284703200, 326280734422412714130200, 326380779317434718920500, 326460734422412714130200, 326690703548864549168850,
  326900724312801026993300, 327000889178663585731500, 327140678765248158710750, 327410940261225962330500, 327500899714715151514200,
  327550743317161315779800, 327791050122454829141500, 327960779317434718920500, 328070805887751292221000, 328080782707589886488600,
  328090899714715151514200, 328120805887751292221000, 328170980807736773147000, 328350870946507906336000, 328730924846157979604700,
  328850924846157979604700, 329240797549590398316000, 329270676355493000804700, 329390776038452436621400, 329480671703491437315400,
  329510736573033236226600, 329560753081008272171400, 329620690391228770296900, 329640632683727839577800, 329730666177223569810500,
  329830786216721867615700, 329850718703854361889000, 329960485754599770492000, 330000745670211056799200, 330010761085279039525000,
  330020594734765669087400, 330380980807736773147000, 330420830399997095519600, 330440899714715151514200, 330480685056630699767700,
  330540924846157979604700, 330710745670211056799200, 330740728234872342321450, 331050610062152804459800, 331100745670211056799200,
  331130870946507906336000, 331270797549590398316000, 331401050122454829141500, 331620602958575492784600, 331690848632152774915000,
  331871119437172885136000, 331900924846157979604700, 332170632683727839577800, 332281050122454829141500, 332310848632152774915000,
  332420594734765669087400, 332480899714715151514200, 332840940261225962330500, 333080540135812046721700, 333130848632152774915000,
  333150924846157979604700, 333230819863945529737000, 333360810332927549304400, 333390715132046101681100, 333530734422412714130200,
  333590750549227473742400, 333700782707589886488600, 333800924846157979604700, 333870715132046101681100, 333900665107694658135600,
  333961119437172885136000, 334250743317161315779800, 334560557760063118478900, 334600772863582605163400, 334820769786416738488000,
  334960980807736773147000, 335050679992257417892200, 335430958493381641726000, 335530958493381641726000, 335570911493018717152400,
  335620732317071794346900, 336030753081008272171400, 336151119437172885136000, 336170810332927549304400, 336271050122454829141500,
  336370724312801026993300, 336380824993274968492000, 336410681234509417747900, 336420776038452436621400, 336820766801120423519900,
  336830862942237138982400, 336910958493381641726000, 336961050122454829141500, 337120911493018717152400, 337200718703854361889000,
  337520805887751292221000, 337760720538768228708600, 337850814984929112793700, 337930786216721867615700, 338090797549590398316000,
  338160668351222233451000, 338200687688361531505000, 338730586649556006178000, 339010743317161315779800, 339121119437172885136000,
  339140940261225962330500, 339220535956099178875500, 339271119437172885136000, 339281119437172885136000, 339340779317434718920500,
  339430911493018717152400, 339720683766290216176800, 339770862942237138982400, 339810776038452436621400, 339840776038452436621400,
  339970848632152774915000, 340000940261225962330500, 340790889178663585731500, 340860958493381641726000, 341080645817328045686500,
  341181119437172885136000, 341200761085279039525000, 341330718703854361889000, 341361050122454829141500, 341620698967910946039400,
  341830475342518821844000, 342120911493018717152400, 342160766801120423519900, 342220690391228770296900, 342410769786416738488000,
  342540681234509417747900, 342680656939891556708900, 342820690391228770296900, 342970645817328045686500, 343080698967910946039400,
  343450797549590398316000, 344140696026522425410100, 344270578272567699632050, 344310743317161315779800, 344430710002716662926000,
  344680679992257417892200, 344760679992257417892200, 344840635018464239276900, 345100766801120423519900, 345200691770560983530500,
  345370644943960048811100, 345410588610403145015600, 345530543862951526444900, 345660679992257417892200, 346010870946507906336000,
  346060862942237138982400, 346090726254609612703500, 346850745670211056799200, 347110924846157979604700, 347280552449080587084000,
  347330718703854361889000, 347620779317434718920500, 347660552449080587084000, 347870696026522425410100, 348220743317161315779800,
  348490703548864549168850, 348510766801120423519900, 348660761085279039525000, 348840713392871830494100, 348850632683727839577800,
  349260722407981529923850, 349300720538768228708600, 349410801631789850341500, 349420669456205852109500, 349430734422412714130200,
  349480541054654652162300, 349740722407981529923850, 349800848632152774915000, 349930750549227473742400, 350170715132046101681100,
  350220848632152774915000, 350260862942237138982400, 350560789853486284703200, 350680763902366736194700, 350970958493381641726000,
  351200700471698682493500, 351250627439080302323600, 351580541054654652162300, 351660889178663585731500, 351740782707589886488600,
  352240805887751292221000, 352330889178663585731500, 352500741018209493309900, 352630814984929112793700, 352710805887751292221000,
  352750889178663585731500, 352760814984929112793700, 352800741018209493309900, 352861119437172885136000, 352920870946507906336000,
  353110665107694658135600, 353180665107694658135600, 353400855531439923610100, 353440805887751292221000, 353500585203747688654900,
  353820635808982189988200, 353930810332927549304400, 354000629653192890044900, 354100694587648680200150, 354160870946507906336000,
  354250638218737347894300, 354550654998082970998750, 354600671703491437315400, 354820656939891556708900, 355100724312801026993300,
  355350705123700245982700, 355370755678556912497400, 355430750549227473742400, 355470650302384662221660, 355500530272751702558900,
  355660687688361531505000, 355800655964274062172500, 355910643219779405360500, 356000706723734380626900, 356040565703746183282400,
  356060630402260062960600, 356070697486402367525400, 356240581909332116719600, 356620819863945529737000, 356700824993274968492000,
  357101009575944018325000, 357260646698391013902000, 357400654998082970998750, 357420736573033236226600, 357500805887751292221000,
  357510855531439923610100, 357550585203747688654900, 357780810332927549304400, 357790635808982189988200, 357900870946507906336000,
  357940694587648680200150, 357960671703491437315400, 357980654998082970998750, 358170638218737347894300, 358220656939891556708900,
  358330705123700245982700, 358360755678556912497400, 358400650302384662221660, 358420750549227473742400, 358470724312801026993300,
  358570565703746183282400, 358620655964274062172500, 358640687688361531505000, 358690530272751702558900, 358710581909332116719600,
  358720654998082970998750, 358730630402260062960600, 358760697486402367525400, 358790706723734380626900, 358831009575944018325000,
  358860824993274968492000, 358900819863945529737000, 358910736573033236226600, 359250728234872342321450, 359550782707589886488600,
  359601050122454829141500, 359780793627519082987800, 359920732317071794346900, 360161119437172885136000, 360180665107694658135600,
  360260940261225962330500, 360580766801120423519900, 360710980807736773147000, 360940681234509417747900, 361000824993274968492000,
  361120911493018717152400, 361471119437172885136000, 361500940261225962330500, 361570824993274968492000, 361600665107694658135600,
  361660911493018717152400, 361690766801120423519900, 361730587136174971295200, 361810980807736773147000, 361880681234509417747900,
  361990801631789850341500, 362730691770560983530500, 362740691770560983530500, 362770836115838479514500, 362820755678556912497400,
  362840824993274968492000, 363100789853486284703200, 363230713392871830494100, 363320842178300661157800, 363440706723734380626900,
  363490958493381641726000, 363720664049483725081900, 363871050122454829141500, 364050730255143074073400, 364160958493381641726000,
  364171050122454829141500, 364370706723734380626900, 364480789853486284703200, 364631050122454829141500, 364680698967910946039400,
  364700761085279039525000, 364960924846157979604700, 365000980807736773147000, 365080958493381641726000, 365180958493381641726000,
  365640716902003811621100, 365710620393914207262400, 365870789853486284703200, 366010879647645605299000, 366020879647645605299000,
  366060980807736773147000, 366130685056630699767700, 366260958493381641726000, 366380855531439923610100, 366460563754366715182300]

def emitS13_3 : List Nat := [
  367061050122454829141500, 367150716902003811621100, 367170620393914207262400, 367250879647645605299000, 367280789853486284703200,
  367291050122454829141500, 367300879647645605299000, 367320980807736773147000, 367380685056630699767700, 367400958493381641726000,
  367430563754366715182300, 367470855531439923610100, 368190786216721867615700, 368210862942237138982400, 368380564141214392974300,
  368400672846361019677700, 368410761085279039525000, 368750716902003811621100, 368810718703854361889000, 368860801631789850341500,
  368970782707589886488600, 369170745670211056799200, 369320736573033236226600, 369520980807736773147000, 369990761085279039525000,
  370150819863945529737000, 370170761085279039525000, 370190678765248158710750, 370250899714715151514200, 370430687688361531505000,
  370460797549590398316000, 370500541982018330695200, 370540758345381620713600, 370610758345381620713600, 370720862942237138982400,
  370750658920154286326900, 370830819863945529737000, 370900672846361019677700, 370950720538768228708600, 371030748079966214705300,
  371180726254609612703500, 371240655964274062172500, 371260658920154286326900, 371420720538768228708600, 371500743317161315779800,
  371550645817328045686500, 371670726254609612703500, 371720541982018330695200, 371740862942237138982400, 371770870946507906336000,
  371870758345381620713600, 371980776038452436621400, 372000810332927549304400, 372140980807736773147000, 372180654998082970998750,
  372200836115838479514500, 372300511443853375577000, 372340958493381641726000, 372361050122454829141500, 372530911493018717152400,
  372600753081008272171400, 372650980807736773147000, 372820824993274968492000, 372930782707589886488600, 372940671703491437315400,
  372950656939891556708900, 373010810332927549304400, 373060755678556912497400, 373130632683727839577800, 373320713392871830494100,
  373350698967910946039400, 373480814984929112793700, 373690758345381620713600, 373760516128550705255900, 373770732317071794346900,
  373930736573033236226600, 374150659925187871677000, 374330647587285755626600, 374340836115838479514500, 374390693169185181004450,
  374450776038452436621400, 374480716902003811621100, 374490940261225962330500, 374530648484152753902600, 374780855531439923610100,
  374980899714715151514200, 375030748079966214705300, 375180761085279039525000, 375230732317071794346900, 375300836115838479514500,
  375360686363838856502900, 375390696026522425410100, 375470671703491437315400, 375500675172047236104400, 375760641524823573983100,
  375830980807736773147000, 375990726254609612703500, 376060779317434718920500, 376080713392871830494100, 376140779317434718920500,
  376330703548864549168850, 376500700471698682493500, 376530793627519082987800, 376570924846157979604700, 376630801631789850341500,
  376780563369009783583200, 376880766801120423519900, 377020830399997095519600, 377030899714715151514200, 377160683766290216176800,
  377750698967910946039400, 378010635018464239276900, 378130657925121201010100, 378410940261225962330500, 378530980807736773147000,
  378540980807736773147000, 379070980807736773147000, 379130654041137869383700, 379270543862951526444900, 379280653093263473929300,
  379500734422412714130200, 379510940261225962330500, 379620786216721867615700, 379870710002716662926000, 380090980807736773147000,
  380140675172047236104400, 380220842178300661157800, 380230713392871830494100, 380260698967910946039400, 380320814984929112793700,
  380360830399997095519600, 380370758345381620713600, 380440776038452436621400, 380510736573033236226600, 380580659925187871677000,
  380590732317071794346900, 380630516128550705255900, 380640836115838479514500, 380660855531439923610100, 380710862942237138982400,
  380790693169185181004450, 380890940261225962330500, 380900716902003811621100, 380910648484152753902600, 380930647587285755626600,
  380970686363838856502900, 380980899714715151514200, 381020779317434718920500, 381030980807736773147000, 381170940261225962330500,
  381200732317071794346900, 381210635018464239276900, 381220748079966214705300, 381230836115838479514500, 381270671703491437315400,
  381350696026522425410100, 381370899714715151514200, 381400766801120423519900, 381410958493381641726000, 381510713392871830494100,
  381570755678556912497400, 381580810332927549304400, 381590543862951526444900, 381630726254609612703500, 381640779317434718920500,
  381650700471698682493500, 381680718703854361889000, 381730696026522425410100, 381740703548864549168850, 381750793627519082987800,
  381780563369009783583200, 381870879647645605299000, 381880801631789850341500, 381930924846157979604700, 381960899714715151514200,
  381990683766290216176800, 382070786216721867615700, 382120653093263473929300, 382130678765248158710750, 382220786216721867615700,
  382270657925121201010100, 382320980807736773147000, 382350980807736773147000, 382370940261225962330500, 382440924846157979604700,
  382450924846157979604700, 382460980807736773147000, 382480924846157979604700, 382490980807736773147000, 382510654041137869383700,
  382520786216721867615700, 382570940261225962330500, 382590710002716662926000, 382860710002716662926000, 383150693169185181004450,
  383350693169185181004450, 383390700471698682493500, 383440698967910946039400, 383520697486402367525400, 383730713392871830494100,
  383850698967910946039400, 383870710002716662926000, 383960713392871830494100, 384030693169185181004450, 384110706723734380626900,
  384120693169185181004450, 384180700471698682493500, 384230697486402367525400, 384490879647645605299000, 384600980807736773147000,
  384610980807736773147000, 384730753081008272171400, 384840889178663585731500, 384880753081008272171400, 384950782707589886488600,
  385080805887751292221000, 385140836115838479514500, 385161050122454829141500, 385360911493018717152400, 385410819863945529737000,
  385760734422412714130200, 385790738770923908104000, 385850745670211056799200, 385880577827132664694000, 386060793627519082987800,
  386240646698391013902000, 386330862942237138982400, 386620793627519082987800, 386641050122454829141500, 387180643219779405360500,
  387390745670211056799200, 387460745670211056799200, 387570716902003811621100, 387600716902003811621100, 387840726254609612703500,
  388020667258315180232000, 388270668351222233451000, 388780848632152774915000, 388910848632152774915000, 389220940261225962330500,
  389950940261225962330500, 390010848632152774915000, 390130879647645605299000, 390240726254609612703500, 390360940261225962330500,
  390530553837991803150800, 390670940261225962330500, 390730848632152774915000, 390740879647645605299000, 390780726254609612703500,
  390860810332927549304400, 391210810332927549304400, 391430587136174971295200, 391460738770923908104000, 391470701998445895572300,
  391490589605436230332400, 391810750549227473742400, 391940671703491437315400, 392170836115838479514500, 392280622455842927536000,
  392400556315994702999500, 392440635018464239276900, 392520559225290797166000, 392600750549227473742400, 392730622455842927536000,
  392740738770923908104000, 392750701998445895572300, 392760589605436230332400, 392960635018464239276900, 393120556315994702999500,
  393160635018464239276900, 393170670573535911922000, 393190797549590398316000, 393200940261225962330500, 393800958493381641726000,
  394290766801120423519900, 394390830399997095519600, 394460824993274968492000, 394670661966075034797800, 394690855531439923610100,
  394700848632152774915000, 394780819863945529737000, 394891119437172885136000, 394920879647645605299000, 395300645817328045686500,
  395410958493381641726000, 395460819863945529737000, 395620645817328045686500, 395680830399997095519600, 395710766801120423519900,
  395760855531439923610100, 395790824993274968492000, 395801119437172885136000, 395810848632152774915000, 395820661966075034797800,
  395860879647645605299000, 395870980807736773147000, 396010689030663564719100, 396160761085279039525000, 396170646698391013902000,
  396350550739637251154100, 396490644943960048811100, 396540576942171136995800, 396590879647645605299000, 396610738770923908104000,
  396730766801120423519900, 396750612546752663112900, 396880793627519082987800, 396950980807736773147000, 397110824993274968492000,
  397210706723734380626900, 397270797549590398316000, 397610608238394049481700, 397960646698391013902000, 398110653093263473929300,
  398240758345381620713600, 398260706723734380626900, 398340980807736773147000, 398380810332927549304400, 398500924846157979604700,
  398510559594976985298600, 398720738770923908104000, 398790862942237138982400, 398920782707589886488600, 398940779317434718920500,
  398950924846157979604700, 398990710002716662926000, 399010810332927549304400, 399060728234872342321450, 399151119437172885136000,
  399440758345381620713600, 399760569311351830663350, 399770730255143074073400, 399860509629744668512000, 400240782707589886488600,
  400290758345381620713600, 400310639858118325461960, 400390855531439923610100, 400450741018209493309900, 400560629653192890044900,
  400660646698391013902000, 400700653093263473929300, 400720629653192890044900, 400750706723734380626900, 400780639858118325461960,
  400800758345381620713600, 400820980807736773147000, 400840924846157979604700, 400850810332927549304400, 400900741018209493309900,
  400910559594976985298600, 400940924846157979604700, 400950782707589886488600, 401030738770923908104000, 401050862942237138982400,
  401090779317434718920500, 401121119437172885136000, 401160810332927549304400, 401170728234872342321450, 401190710002716662926000,
  401220958493381641726000, 401230782707589886488600, 401240758345381620713600, 401250758345381620713600, 401400509629744668512000,
  401420569311351830663350, 401440730255143074073400, 401470819863945529737000, 401520924846157979604700, 401620855531439923610100,
  402210769786416738488000, 402230710002716662926000, 403030848632152774915000, 403270776038452436621400, 403570855531439923610100,
  403800797549590398316000, 404100753081008272171400, 404750753081008272171400, 404910776038452436621400, 404970710002716662926000,
  404980769786416738488000, 405260848632152774915000, 405390855531439923610100, 405470797549590398316000, 405520753081008272171400,
  405610755678556912497400, 405630753081008272171400, 405700755678556912497400, 405740755678556912497400, 405830801631789850341500,
  405840836115838479514500, 406490958493381641726000, 406520958493381641726000, 406710899714715151514200, 406720842178300661157800,
  406770730255143074073400, 406970958493381641726000, 406990805887751292221000, 407000604687725203790700, 407130656939891556708900]

def emitS13_4 : List Nat := [
  407170656939891556708900, 407200581447437531090100, 407270726254609612703500, 407720940261225962330500, 407820587136174971295200,
  407830769786416738488000, 407850769786416738488000, 407880658920154286326900, 408000669456205852109500, 408060687688361531505000,
  408320658920154286326900, 408380669456205852109500, 408400687688361531505000, 408640980807736773147000]

def emitS14_0 : List Nat := [
  387500000000000000000000]

def emitS17_0 : List Nat := [
  199851211855204800067800, 200250625492087240258150, 200440509123753396090200, 200500777474662614699400, 200940497889171203575900,
  201220387684888827086000, 201260387684888827086000, 201400384394010179112570, 202250730636769262826100, 202340503600347864537850,
  202660566492704910798700, 203240828991065151158300, 203750668483004444643800, 203920862204448653419900, 204200423510569386293900,
  206050566492704910798700, 206430733942855488914900, 206890862204448653419900, 207540676669391452461200, 208480529309201174537150,
  208640665896653385651900, 208961101993975933257000, 209370972065677520230800, 212560671138027654055950, 213260382075942161981660,
  213380728227014104920000, 213460644867112502015900, 213610788444554340341950, 213800652013008900230300, 214140647664497706256450,
  214420662138382270747600, 214430662138382270747600, 214940509568396191803700, 215130502017640940989200, 217040474329626999092500,
  217330912281977444668800, 217760538753394751859550, 218880553514282584191350, 220250412493205317293500, 222660499891640998304250,
  223070425106347930155000, 223170748382305977104250, 223740624362131714864800, 224670601599345338711000, 225221211855204800067800,
  226120447602791376777600, 226160581960280114473600, 228850410653380884161750, 228870410653380884161750, 229190642481990919797850,
  229960453734222180433200, 230440791385942860971300, 231050791385942860971300, 231420642481990919797850, 233810646957780983947200,
  233910564466135164840400, 234250489891000786994300, 234390750343153115941900, 234660782809260685228700, 235190517542962518125000,
  235270489891000786994300, 235480765264392934609500, 235660765264392934609500, 236120488581891182306400, 237770554907062758638200,
  238050554907062758638200, 240290463081828656423400, 240520430982274125628000, 240760570673378029078100, 240930473642768226316600,
  241910838088242971731000, 242200521580931084208550, 242470568883256996154100, 242640647664497706256450, 242910838088242971731000,
  243100567442079130023800, 244130615754670837740500, 245030357666624399406930, 245090686627861995404800, 246810685586185909579300,
  248470785587217095936300, 250100782809260685228700, 252150708811412660824300, 252160777474662614699400, 253861003911050632084200,
  254630578349779650261900, 257050491143319179292300, 259580785587217095936300, 260000672948031818417700, 260310642481990919797850,
  260850275944690275938380, 260860719129836284347400, 261180612708750089269700, 261240660512330183569600, 261850483923321258605800,
  261870483923321258605800, 262340661322051206831600, 263880623801906159997800, 264770499085834865328000, 265251101993975933257000,
  266040708811412660824300, 266840496315574610394400, 266900616271467853584700, 267571050911413556657900, 269700539833189286538300,
  269990981596695500663300, 270290862204448653419900, 274310454091821539795100, 274530645559156786473200, 274720454091821539795100,
  274940632859187710342500, 277210358332249409834260, 277330791385942860971300, 277780696526045350290000, 277810792889730597425300,
  277840646957780983947200, 278180326274605546411720, 278210800767818382736800, 278370639824027139326650, 278610255347861632310470,
  278630699458806859741960, 278740419484171403144100, 278880486154934090860550, 279310547606524663342200, 279410558621775577832900,
  279460912281977444668800, 279820522388200856719600, 279880755420385653284200, 279930535582254106879900, 280060704964784578044700,
  280411101993975933257000, 280920972065677520230800, 281420499246477470155400, 281800616012735497089600, 281890623244801655052250,
  282070410025590948515800, 282480477254183808738650, 282510934596332576089700, 283590544399065618625200, 283900766420475174717100,
  283960326274605546411720, 284170616012735497089600, 284350912281977444668800, 284500358332249409834260, 284670674327364031651300,
  284871017264189894536500, 285270755420385653284200, 285480902750959464236200, 285580947949471838542000, 285830800767818382736800,
  285950513661737084429000, 286390522388200856719600, 287031017264189894536500, 287720766420475174717100, 288790509123753396090200,
  289660845499040187103300, 292870564775254421807650, 296270622139818036393800, 296640670245164579625800, 297560644522878082918550,
  297900497414486767954000, 297960627500763096931900, 298140627500763096931900, 298980644522878082918550, 299350766420475174717100,
  299640766420475174717100, 299760679067587921109700, 299960812956800143640400, 300031073225768688078800, 300600666323093264297700,
  300660666323093264297700, 300860698865333307760500, 303580571995711346547100, 304170491217475652842600, 304350491217475652842600,
  304390644867112502015900, 307070737361991963742800, 311920688211008517072900, 312060716272499039941750, 313020752343219786608850,
  313191003911050632084200, 316860733106030521863250, 317260708159944558705000, 318110708159944558705000, 319080535929677733698550,
  319250535929677733698550, 320130724335472479952700, 320160621865469441818700, 320340691454536092388300, 321430686627861995404800,
  321730600486986816844800, 322361017264189894536500, 324350724335472479952700, 324450621865469441818700, 324850686627861995404800,
  325000600486986816844800, 325171017264189894536500, 325990443837640756408800, 326450443837640756408800, 326520657728850284225250,
  326540285419708771825760, 327010797541732160914600, 328220560978291102899600, 328540425106347930155000, 334520695949674878614900,
  334870466036589066019150, 335210375544287196715600, 336060672492450164831700, 336100672492450164831700, 336550780106393446436800,
  336940865281614520095100, 337430754384106949729550, 337750382075942161981660, 337780588807060042219600, 338320672948031818417700,
  338650509568396191803700, 338890678583325473530950, 339310638197975052148600, 339930726652178408106100, 340830638197975052148600,
  342170672948031818417700, 342550397010638175744250, 343110466036589066019150, 343490529309201174537150, 344730804101460409496000,
  345600479538133005720900, 351400454399356379819800, 359470535120892273528600, 359970594476594409874200, 360311211855204800067800,
  361060754384106949729550, 361230588414132228230700, 361250594476594409874200, 361521211855204800067800, 361900754384106949729550,
  361950588414132228230700, 366860601375881558569300, 367350601375881558569300, 367970427588057302122150, 369880427588057302122150,
  370130814826013444855600, 370730992132747066445800, 371080853503310954457000, 371220631945939354015300, 371650992132747066445800,
  372761211855204800067800, 376700648019737866693300, 380540645559156786473200, 381820648019737866693300, 383130560532193708837100,
  383970560532193708837100, 384510992132747066445800, 384630421606461083782400, 384700992132747066445800, 384710631341707908419000,
  384850599605923848629300, 384930599605923848629300, 385200992132747066445800, 385250992132747066445800, 385800631341707908419000,
  385820612209995938165700, 385840612209995938165700, 386050789904434282457200, 386690714181830558010400, 387420792889730597425300,
  388670435893789730377500, 388890435893789730377500, 389020947949471838542000, 389910889967622313247700, 390680889967622313247700,
  397910868456484351553300, 400650868456484351553300, 406540656172398630114100, 406600579419308561936750]

def emitS19_0 : List Nat := [
  202020629695583977094500, 202040095692798464153820, 204970095692798464153820, 207360629695583977094500, 221200742373900540575100,
  224110140313183141077860, 243350208345743975868250, 288140715044567040607000, 300280549429013340451000, 327730143434803524467800]

def emitS22_0 : List Nat := [
  199680201917962755703640, 199710560629845215663500, 199750390000107496678530, 199761073619716707970700, 199770341306527730219460,
  199790862776808852662000, 199971218311615001603300, 200040356693772191537440, 200100341050584673529040, 200571039135668078797900,
  200610570115624561531100, 200651126682541814187700, 201080382082391981775830, 201160490293561700393200, 201231247079822246781300,
  201370744472712024171900, 201590481524976181240700, 201911057367823758193200, 201950828114348044138800, 202000941052742777625200,
  202140730031422742966300, 202190961816679255449700, 202210768053255280304300, 202370862776808852662000, 203010611064781875496400,
  203130517145140764338400, 203361100446115367438800, 203630745572833130369300, 204570615183010872138000, 204860615183010872138000,
  204910341050584673529040, 204930487457335247684300, 207400481524976181240700, 208030369278041276967840, 208060696682261894658700,
  208110607609326227377900, 208281287626333057597900, 208410356693772191537440, 208430538183311554441300, 208450537104612116830400,
  208550818491544834683500, 208740889658167667401800, 208760889658167667401800, 209110821755237765985700, 209600564606229920576900,
  209861016821312947376800, 209921148996896945608800, 209980588923487069933400, 210150927895106998753300, 210170881582032002955900,
  210630881582032002955900, 211031047836805777760800, 212421117151523833755400, 212530969820950022803400, 213050891545016097840000,
  213130534283703615881040, 213150628527570494071900, 213171043391629520677500, 213220490121444618315900, 213670604377053609438900,
  214411027357364513159500, 214520527761340608719000, 214570705915217061277500, 214750937975576910949900, 214770990584886500627700,
  214820453378073295236000, 214880695468491093216300, 214941007290294966944400, 214950543905696370468600, 215170538127709662544500,
  215440576352847090730300, 215921148996896945608800, 216080653238289644964800, 216191148996896945608800, 216971047836805777760800,
  217091148996896945608800, 217291148996896945608800, 221360576352847090730300, 222350441765309659203900, 222380887806262890678000,
  222420835447475352693800, 222801001406244964651000, 222960835447475352693800, 223300853897258974348900, 223590748719160075947800,
  224391287626333057597900, 225301218311615001603300, 225800853897258974348900, 226020748719160075947800, 227681195997259870182300,
  227771004304998651976200, 227880770294245420262700, 228100245090636206158360, 228121013542330665077700, 228250544200594844284300,
  228360969820950022803400, 228710682770981648386900, 230020866413573269749400, 233950942627578474439000, 234470904762193408688400,
  234780429113115615154900, 235440874912894553088600, 235450734089950754474100, 235531047836805777760800, 235621010367460833619700,
  235650734089950754474100, 236100942627578474439000, 236141031131397311444300, 236160950896750058950400, 236180753632428933712300,
  236220783931072816234900, 236260783931072816234900, 236520753632428933712300, 236810506631624409918850, 237921117151523833755400,
  240861356941051113592400, 241031177765104190787000, 241090866413573269749400, 241101287626333057597900, 241281177765104190787000,
  241330866413573269749400, 241490901553361953538300, 241621043391629520677500, 241711287626333057597900, 241800174874302658614600,
  241900564606229920576900, 242021247079822246781300, 242300702406085080150400, 242310659212916950517700, 243191162350036208061000,
  243200787905105681186300, 243520785898349376105450, 243730785898349376105450, 244290961816679255449700, 251040770862428767005800,
  251420749406448004724000, 251430749406448004724000, 251520722027151975612650, 251591093035318152066500, 251630707868697663341600,
  251711177765104190787000, 252090944227612609083200, 252260998589157267981300, 252400722027151975612650, 252851287626333057597900,
  253071162350036208061000, 253421247079822246781300, 254141356941051113592400, 254200956207732590345200, 254900923867717084959300,
  256741247079822246781300, 258121287626333057597900, 258921247079822246781300, 259030779485896559151600, 259680482094688119386800,
  259720693477715327423800, 259760482094688119386800, 259911007290294966944400, 260071218311615001603300, 260200856546420519046400,
  260410942627578474439000, 260850257011459726442040, 263541137218593379970400, 263760220469507333088230, 263811287626333057597900,
  263990714778824332940600, 264120887806262890678000, 264210923867717084959300, 264381218311615001603300, 264631218311615001603300,
  264650627299724236200350, 264790976274802136560500, 265220656634505234946200, 265251108450386134792400, 265381052488807341250200,
  265500611353382364409900, 265781137218593379970400, 266091218311615001603300, 266350945853664696261200, 266661039135668078797900,
  266791177765104190787000, 266810791341870031607100, 266941247079822246781300, 266961218311615001603300, 267001162350036208061000,
  267230930673063409460800, 267291356941051113592400, 267421001406244964651000, 267511218311615001603300, 267810627299724236200350,
  268470945853664696261200, 268691067903875323975900, 270851052488807341250200, 271371356941051113592400, 271711177765104190787000,
  272840930673063409460800, 274250569201332478263700, 274540698600128897715900, 274681100446115367438800, 274930903681101798266800,
  275060506631624409918850, 275730908077414140378500, 277541356941051113592400, 279660993182435140953900, 284041052488807341250200,
  288570404469745145491500, 292550857219823737181000, 295900871738024721630600, 296770961816679255449700, 299260880723657633816800,
  299421031131397311444300, 300020958042646457165000, 300450744472712024171900, 300581287626333057597900, 303320705915217061277500,
  303340599536550576372400, 304151287626333057597900, 304181067903875323975900, 304241010367460833619700, 304301287626333057597900,
  304361010367460833619700, 304460908077414140378500, 304621177765104190787000, 305241067903875323975900, 305281086136031003371400,
  308711020211468114945000, 309170757295842251690300, 310800944227612609083200, 311810515980253039962400, 311860722905120740817200,
  312431356941051113592400, 312780515980253039962400, 314491126682541814187700, 314560744036030107537900, 314711356941051113592400,
  315080863493657800523300, 315320555408320211420500, 315580863493657800523300, 315610730410929839821400, 316651117151523833755400,
  316800716418205310508200, 316870734287384184845850, 318590439604537528463600, 318670725405250961358900, 318900930673063409460800,
  320251195997259870182300, 320260692301999628819400, 320680843361207408566200, 321141218311615001603300, 321730897429066100133400,
  322180945853664696261200, 323111356941051113592400, 324230692301999628819400, 324401195997259870182300, 324470945853664696261200,
  324520843361207408566200, 325000897429066100133400, 325331356941051113592400, 325921356941051113592400, 326761162350036208061000,
  327011356941051113592400, 328821195997259870182300, 329020823187243143460600, 329290571774933324665800, 329741079682178889614300,
  333680619855034459920800, 334100716418205310508200, 338360390000107496678530, 338651007290294966944400, 338791086136031003371400,
  343890770294245420262700, 343990543905696370468600, 348920861358345353466200, 349551108450386134792400, 350410859267676871535000,
  352820963758487841159800, 353521287626333057597900, 353770613633516223734300, 357601287626333057597900, 357680613633516223734300,
  360190817578296478356300, 361440817578296478356300, 362150763187430605349700, 362551108450386134792400, 363350788923790211885700,
  365231137218593379970400, 365540967759021302529700, 366171010367460833619700, 366350631170283397588200, 366491287626333057597900,
  366500856546420519046400, 366550959911859758380200, 367100967759021302529700, 367180856546420519046400, 367331010367460833619700,
  367420631170283397588200, 367441287626333057597900, 367530959911859758380200, 368901027357364513159500, 369130653238289644964800,
  369411137218593379970400, 369470865675562539987100, 369731287626333057597900, 370960679290351876374100, 371291126682541814187700,
  373240859267676871535000, 373251117151523833755400, 375261247079822246781300, 376561356941051113592400, 376641356941051113592400,
  377700570230501081918500, 381141247079822246781300, 381801356941051113592400, 381891356941051113592400, 382250570230501081918500,
  382720724864221688534100, 382830787905105681186300, 382910853245790872229500, 383471356941051113592400, 383760724864221688534100,
  383880853245790872229500, 384211356941051113592400, 384310988053105702198800, 384531356941051113592400, 384700714941558298878100,
  384991356941051113592400, 385200714941558298878100, 385380988053105702198800, 385980932091526908656400, 386170527761340608719000,
  386460630888791304607100, 387540954405882040077500, 389111148996896945608800, 389130668799920749338800, 389141117151523833755400,
  389151004304998651976200, 389170677035464907712700, 389311218311615001603300, 389570969820950022803400, 389820778558532880618600,
  390060725405250961358900, 390290668799920749338800, 390301117151523833755400, 390311004304998651976200, 390330677035464907712700,
  390391218311615001603300, 390630778558532880618600, 391841177765104190787000, 391920517145140764338400, 393180533989939217146800,
  393420821755237765985700, 393811218311615001603300, 395501218311615001603300, 397171218311615001603300, 406700404469745145491500]

def emitS23_0 : List Nat := [
  199930152656469191474330, 200570372378926925096300, 234930228620161374352150, 240510098125289207758340, 250980194084042970506250,
  300020349017441806945740, 303280232442282656371950, 367840458878670673756700]

def emitS25_0 : List Nat := [
  199940894271863889264300, 199970706614732223414950, 200110926683810754685500, 200270502113694387294400, 200570792242424367195100,
  200650607713365997893450, 200700471016906499871100, 201070386669772492116430, 201130597186967407648000, 201170713230191206004500,
  201540221258411838312740, 201670806442902519710200, 201810822722415964070200, 201830679306086887069950, 202150551935813756102100,
  202231342572119090652700, 202471342572119090652700, 202540738308835722414500, 203070582882675276198400, 203150650209256276810000,
  203630653003849315865900, 204490522214345396857500, 205380574047758293069300, 205400564541810299815300, 205980835681698868629600,
  206320738308835722414500, 206610574047758293069300, 207110686610595341328440, 207290551935813756102100, 207990487316085565299900,
  208090527136474554283100, 208180487316085565299900, 208260557776336000392200, 208281273257401034658200, 208510952374852133188200,
  208530476720206339985400, 208910446217689890978250, 209060949389555818220100, 209120680698220738930700, 209890822446553720162200,
  209920619443418657891200, 210090707483547419178700, 210330598822040330588800, 210730656505751945824000, 210761029022697497737800,
  210950730652327728899400, 211270730652327728899400, 211330656505751945824000, 211470544347556537669000, 211510625368041727900500,
  211630893708482117438800, 211700718642047989396400, 211850718642047989396400, 211910752719463945781400, 213060503477172606454000,
  213100845938615570685000, 213120503477172606454000, 213450668638456354935300, 213480862993064530978600, 213500719819686721778850,
  213650684231196874776250, 213780640956003808060350, 213810669828946605567100, 214390478595644710210900, 214420688758136713885700,
  214430688758136713885700, 214490757639641095966800, 214510850574026507840100, 214600668697645465867200, 214940659161245209268800,
  214960756351147965580800, 215310633940140400814740, 215920897720481496381200, 216290522228029967525500, 217290897720481496381200,
  217330614674724254481700, 218300593212558435295400, 220680590765700967344900, 221200640553048259460100, 222420625023147728230500,
  222690431172653471702900, 222700522118605801224800, 222780755360340143111100, 222800868952274251203000, 222830431172653471702900,
  222910755360340143111100, 222940522118605801224800, 222960625023147728230500, 223030546208716584318100, 223381040529630476216400,
  223530726556927828039400, 223650764035872925790300, 223670732540223888646300, 223690668225110623224600, 223830903746400648201000,
  224780479110058261432500, 224881078666386129126800, 224950803209364455416600, 225341022704807335584600, 225640769724610365995400,
  225770495028793373852150, 226101078666386129126800, 226750595863587909878400, 226810649767320865662800, 226960742430631294537700,
  227070732540223888646300, 227610764035872925790300, 227710649767320865662800, 227880463827188086188700, 228180640776711962631400,
  228270669351048443932050, 228310875289235644462000, 228360437543220707857100, 228700675558878450343400, 229020721813770742130000,
  229200616029146765257350, 229690827822671409307500, 229740758944953320424700, 229860925905596710480000, 229920716997114915316000,
  229930765896391708893700, 230040794508226756453600, 230160847342147382323500, 230640604796228267865500, 232290616029146765257350,
  233800685343864821251900, 233830484189791719252700, 234480506576677591678100, 234530616695698961228440, 234600631420907441037000,
  234860823554598297819300, 235420616695698961228440, 236140621084892683400200, 236150680232019428349600, 236160618614734398452450,
  236170810760119706231000, 236270659107438374502850, 236300809058985123577500, 236330841175810671759700, 236650470910353479667250,
  237030739744267067582850, 237070601446706354486000, 237250685975224336937100, 237310791835919742378200, 237360691695205393484500,
  237980601446706354486000, 238310739744267067582850, 239940685975224336937100, 240300517679967842224700, 240340793471948052898900,
  240370586355955968087500, 240650792446298036180000, 240660459737357085336650, 240670618042282030168360, 240700808099745154433400,
  241250779810007721588950, 241300949389555818220100, 241491134627964922669100, 241630792446298036180000, 242020661008120083219500,
  242070734464448510885800, 242110710495289665594400, 242150622828583680993600, 242170669231929906916800, 242350710495289665594400,
  242870669231929906916800, 242880640956003808060350, 243070669828946605567100, 243390854671433928870700, 243510644007937326731800,
  243580731314581804948700, 243590808578214966767000, 243670964153155698826600, 243840899490439206321400, 243980964153155698826600,
  244330718544534573575700, 245150467227080903069700, 245350631829571679582300, 245770701390292319663000, 246150486451111407351500,
  246870684438881269260200, 247730577009383167519800, 249070701390292319663000, 251030641045770420910400, 251380641045770420910400,
  251510564688177288831400, 251591078666386129126800, 251630447895581603889250, 252530495028793373852150, 253070704052679190880150,
  253310788249878126276800, 254661033467873754821100, 254840721813770742130000, 256740799857095251552150, 257331112313609791248000,
  257350966452107521296500, 258051250943045903237100, 258920799857095251552150, 259250919888744563834700, 259551250943045903237100,
  260010751763825273759600, 260090661062959678780900, 260530667754798174885500, 260710636782325349467000, 261430621268953107165800,
  262920802304380903424700, 263600471016906499871100, 263760419420658369893750, 264080653714873134116400, 264350556553613343436200,
  264400980138025793016300, 264480784222488212482800, 264490572587878350954100, 265310809784502211694600, 265380583866413818649700,
  265640709333005682795200, 266070958626887831321600, 266090705496440999440400, 266110695105918715002900, 266120733328072645854250,
  266311342572119090652700, 266390822722415964070200, 266800626448716081410700, 266840772695125807387000, 266910787859252629570200,
  267230759091045384392200, 267250615228167382807000, 267280858547888273895200, 267290881556346340739700, 267530693121120735151700,
  267900640776711962631400, 267920773705235406037400, 268270778204264032003100, 268390809784502211694600, 268420826666589169199800,
  269760933974487835494200, 269890894271863889264300, 270040596638229568623100, 270360724054190317514750, 270670798114131738023800,
  270850583866413818649700, 271230858547888273895200, 271370881556346340739700, 271550596638229568623100, 271611342572119090652700,
  272110615228167382807000, 272840759091045384392200, 273960822722415964070200, 274020556553613343436200, 274540662833896940576000,
  274680653460355307741300, 275800649767320865662800, 275830613850260635522600, 276020674549406155642400, 276680490284418302199200,
  276790810760119706231000, 276820726874220532097100, 276830490284418302199200, 276860895408239754295800, 276870714158702983572500,
  276880789035736787528900, 276890928258646451499400, 276910726874220532097100, 276920928258646451499400, 276940771529417353165800,
  276950796401027745005400, 277000438593192012538300, 277350621011363268322600, 277420779271889831137300, 277480658037337205300700,
  278010634864516730768700, 278070671519808145409900, 278270534393698397152600, 278330595322044616896800, 278490726980208883301500,
  278731053534943301036200, 278740844554510429497900, 278770668048484142216500, 278820696973677290906600, 278930844554510429497900,
  278991217295822241116000, 279340574093724738374300, 279630588589658087303500, 279740811745349350532100, 280100707833198125051700,
  280230529580943716482500, 281220696973677290906600, 281920749746271970233700, 281950888775975461188500, 282460594501091669285000,
  282710658037337205300700, 283170671519808145409900, 283300739744267067582850, 284220786889312920698900, 284790811745349350532100,
  285250786696448830058300, 285260692819233713426500, 286811217295822241116000, 287790552360364463008000, 287830631339374619561500,
  287840689922633133573700, 287900772527761751584000, 287970733781074553029300, 287980733781074553029300, 288090719327317435600400,
  288210718349792545136200, 288450837586518365699000, 288460629362308003469800, 288670878133029176515500, 288950619334939167954600,
  289160878133029176515500, 289190902511817065971000, 290170619334939167954600, 290280586096417800079800, 290660735729560266241700,
  291280631339374619561500, 291510572226214303935250, 292000719327317435600400, 292400690510006334783100, 292410630245138777467150,
  292540649767320865662800, 292560638737634222078800, 292600639089282936091400, 292730648018854759036000, 292750568592673249782600,
  293130802304380903424700, 293990629602308118669900, 294220843869576244940400, 294360681704602932854000, 294820650702597188605600,
  294830715284418436035900, 295090843869576244940400, 295180675558878450343400, 295770610156086377789100, 296770645358365299512200,
  296990647730393020550000, 297020602296483850537100, 297480751899787225363500, 298821031220588169615300, 299160751763825273759600,
  299220917722594885716900, 299260704221455602252100, 299340861353683553411000, 299420720712107121479750, 299730861353683553411000,
  300000574185721065009700, 300020577056731653252900, 300050526434616770904000, 300280629642364197715400, 300441112313609791248000,
  301160908843045007403700, 301260865928285732231400, 301291029022697497737800, 301461009351668073132300, 301490536061312823368000,
  301790918439443833578100, 301920744178491021933650, 302410865928285732231400, 302440810027515697023800, 302700939148055275413200,
  302840820266630885903700, 302851045530672533682500, 303071031220588169615300, 303161031220588169615300, 303180939148055275413200,
  303820612964696265119600, 303841029022697497737800, 303850831977571700594600, 303881000799450729316000, 303940831977571700594600,
  304060783100981130468800, 304160591885472329103900, 304310770869348950030500, 304650492282978420114950, 304730749480314366657800,
  305240547521875609767600, 305261342572119090652700, 306830843869576244940400, 307070839528326951409200, 307170730213249087150400,
  307190639265572095894400, 307220746471585128325400, 307420716327576307017560, 307750834121604824381500, 307801192164379413025300,
  307890730213249087150400, 308020900087455904971600, 308130888775975461188500, 308270744304514983162400, 308391155391901400493600,
  308440849124725777583600, 308650735729560266241700, 308711147981104185121400, 308720842177488496106700, 308970730542377195557700,
  308990559589193529450800, 309171053534943301036200, 309380716327576307017560, 309670732204465319161700, 309770786503955989099900]

def emitS25_1 : List Nat := [
  310140639265572095894400, 310360600424448504637400, 310380624147118511318600, 310700544689612626268100, 310800645077466238406700,
  310960750012938794925250, 311170750012938794925250, 311190642812520792460100, 311500600424448504637400, 311850551954235051171250,
  311860741936803130479500, 312040870276796926205200, 312071068488116698132600, 312370629242523601045900, 312430713045518946688100,
  312460629242523601045900, 313190834431682592206400, 313770708271987771593600, 313820851674955058677200, 313890680498153983301000,
  313920945542927735440500, 314010680498153983301000, 314070708271987771593600, 314461089999254659827200, 314610855052386770537600,
  314811342572119090652700, 314990922102857151556000, 315130898896965654339800, 315150829286826408602300, 315480907544325454722600,
  315630806913491623451400, 315650922102857151556000, 315680906262256611816500, 315810970002776366987400, 316160764806886768387000,
  316310970002776366987400, 316610646869967062147200, 316800609794065248489600, 317350920621348573042000, 317770764806886768387000,
  317830850209727379990100, 318400907544325454722600, 318810716232292831490300, 319090781624939572156750, 319140792650588199160000,
  319180634107574512764200, 319580655930887545877300, 319660792650588199160000, 319680906901236421693500, 319750634107574512764200,
  320230758799074374058700, 320250627032488900979250, 320320636395809944504300, 320680946490802130894900, 321040850574026507840100,
  321140706614732223414950, 321210807149619242019500, 321770664864423556650600, 321780532662252399859500, 322180514071229545664800,
  322270715473275904822800, 322910478595644710210900, 322990997573364507494000, 323210828405763440386700, 324120982840893031808200,
  324330758799074374058700, 324340664864423556650600, 324400627032488900979250, 324470514071229545664800, 324520946490802130894900,
  324660850574026507840100, 324820807149619242019500, 325180982840893031808200, 325360715473275904822800, 325410997573364507494000,
  325680768914889342733500, 325930532662252399859500, 326180617864060632077000, 326251155391901400493600, 326500668520183130030300,
  327901217295822241116000, 327930877653411950166200, 328021250943045903237100, 328190624298921197016300, 329050599442151575062400,
  329070828405763440386700, 329250674549406155642400, 329280751899787225363500, 329330770213608895414700, 329370734122177783135600,
  329540698000137152094900, 329580672930441778883700, 329630700817224848764500, 329660741200603486372500, 330140708271987771593600,
  330161203942682978663600, 330180849485086527913300, 330410652448712891465550, 330430845244168335404000, 330500577960638854289700,
  330800537008738195336200, 330860749215062221744800, 331020672930441778883700, 331260652448712891465550, 331340810760119706231000,
  331360641766819060902600, 331390577960638854289700, 331440751899787225363500, 331510609302502731556900, 331800670610435403990900,
  331840708271987771593600, 332130741200603486372500, 332150845244168335404000, 332180753684323257364600, 332250537008738195336200,
  332510574439148225183000, 332850833197099009976400, 332920697367223646930100, 333110775411761461456100, 333290736309944948221700,
  333330846989413330526600, 333370560167518005023450, 333510757064926870410000, 333690736309944948221700, 334100609794065248489600,
  334690798114131738023800, 334950730103780001232200, 335190758507953353312900, 335500719918452161906150, 335900512954880542352050,
  336090584476636917414100, 336470582356951196401250, 336591062236080999999300, 336860719918452161906150, 337400710675307716009300,
  337560640642453719148300, 338290572226214303935250, 338650659161245209268800, 339050813745416021199100, 339480779630313153918800,
  340850813745416021199100, 342180807861366018905800, 342330999173398642138000, 342610820807172742594600, 342760811498130435993300,
  342770582356951196401250, 343820619371085924176900, 343890463827188086188700, 344110652348109261250000, 344250882055100491843500,
  344300741813726191866200, 344530843189301512665200, 344611005842536092005300, 345020934818374700080700, 345030685764327949455100,
  345070683062397044634800, 345620791431060889778200, 345880834121604824381500, 345930799857095251552150, 346330865928285732231400,
  346620741813726191866200, 347350929858680586143500, 347960865928285732231400, 348020652348109261250000, 348350954415739296309000,
  348361005842536092005300, 348470799857095251552150, 348700843189301512665200, 348800567834026498572000, 349030635925422076956900,
  349200568462210087116100, 349211014857645791435000, 351670926683810754685500, 352820713045518946688100, 353800823276434001631700,
  354220606022465925085500, 354330574762623553453900, 354410424074991028088500, 355060695183049455425200, 355980780713356231355800,
  356570571215991322550650, 357770571215991322550650, 357850823276434001631700, 357890606022465925085500, 357990574762623553453900,
  358050424074991028088500, 358380695183049455425200, 358680780713356231355800, 359100705839200546667100, 359181089999254659827200,
  359370551476380806093850, 359480650702597188605600, 359610831674999608941000, 359700862993064530978600, 359870715284418436035900,
  360010629003384387838250, 360080664579928343427450, 360310919888744563834700, 360420602113779780225300, 360510823554598297819300,
  360700934818374700080700, 360760748818498582410100, 361300629003384387838250, 361340748818498582410100, 361350664579928343427450,
  361520919888744563834700, 361560602113779780225300, 361710934818374700080700, 363350485016475619337500, 364760955452017999863700,
  365540489068808136195900, 365570446217689890978250, 366000691620717494323500, 366490755642427777275200, 366851016762465288504600,
  367100489068808136195900, 367240691620717494323500, 367440755642427777275200, 367611016762465288504600, 370890607424209169913500,
  371290607713365997893450, 372020540890836539474100, 372100893148256562571800, 372330859740745360422700, 372380714438946044142700,
  372400663337676343571750, 372590761757870092608300, 372740920621348573042000, 372750852415699186463300, 372920859740745360422700,
  373210833812485567414400, 373270486738605615911450, 373410668402049625447250, 373530868514636791223200, 373850751763825273759600,
  374110717381730774063800, 374140800740103196379300, 374241056352030997705800, 374321020684536603832600, 374380771529417353165800,
  374400765428006777651150, 374570832890820056921800, 374670710855650415924300, 374760749613204751663300, 374990818662318401846200,
  375090558836416599056200, 375410985618849442515600, 375421018704273874214600, 375461181628327847242600, 375610976215954477688000,
  375641040529630476216400, 375690677414931731680000, 375730678193145775885500, 375750808338693894171600, 376160784599136492030400,
  376241203942682978663600, 376280603553976268009700, 376660450740564081626200, 376720926683810754685500, 376750707309179458696050,
  376790648453113583815300, 376830761908133081061840, 376970954415739296309000, 377070694184960555657200, 377321016762465288504600,
  377400916304131386521100, 377490750414277126271100, 377540905627333843950500, 377620780170368471918900, 377840884586881290272600,
  377940781624939572156750, 378040898306993441621000, 378060589658329759375550, 378110770377141229487700, 378581048128221174008700,
  379120671580728037638150, 379390951369818547838000, 379410552749578187598400, 380120816822581887874600, 380240668402049625447250,
  380340868514636791223200, 380410717381730774063800, 380420943673714434225300, 380430800740103196379300, 380470671580728037638150,
  380480751763825273759600, 380490808338693894171600, 380500603553976268009700, 380560781624939572156750, 380570749613204751663300,
  380650450740564081626200, 380731020684536603832600, 380780765428006777651150, 380800771529417353165800, 380810552749578187598400,
  380820832890820056921800, 380850710855650415924300, 380881056352030997705800, 381011181628327847242600, 381080558836416599056200,
  381090677414931731680000, 381111018704273874214600, 381240818662318401846200, 381290985618849442515600, 381460784599136492030400,
  381490694184960555657200, 381520976215954477688000, 381531040529630476216400, 381560678193145775885500, 381670905627333843950500,
  381690648453113583815300, 381700926683810754685500, 381770707309179458696050, 381790816822581887874600, 381840954415739296309000,
  381900750414277126271100, 381911203942682978663600, 381920761908133081061840, 382001016762465288504600, 382010916304131386521100,
  382090780170368471918900, 382150589658329759375550, 382170884586881290272600, 382210770377141229487700, 382240898306993441621000,
  382301048128221174008700, 382530951369818547838000, 382581250943045903237100, 382720483193739732857700, 382741031220588169615300,
  382960799418498057226800, 383090894271863889264300, 383640952374852133188200, 383760483193739732857700, 383771031220588169615300,
  383920799418498057226800, 384000894271863889264300, 384310620279027516368700, 384980598118018648886700, 385380620279027516368700,
  385930826954359151961200, 386220649229816517581250, 386320613474641276354500, 386340618614734398452450, 386420597186967407648000,
  386470705496440999440400, 386510526434616770904000, 386540694951835479587300, 386650886659494341984300, 386840752994189393295250,
  386860867213099980016200, 386950694951835479587300, 387120811993180951979000, 387540497991659557794300, 387950707920802160439700,
  388290771861092615765100, 388990655152269545323200, 389010760861003094332300, 389070760861003094332300, 389570437543220707857100,
  389880692743904143009300, 389890657031239229659900, 390640692743904143009300, 390690657031239229659900, 390800533915708126200350,
  391180533915708126200350, 391510586148271573603600, 391730811745349350532100, 392770586148271573603600, 392920811745349350532100,
  393400462651194866513600, 395220732204465319161700, 395320462651194866513600, 395400732204465319161700, 396360582882675276198400,
  397400615089519180353700, 397460755360340143111100, 397700574485294972656300, 397910733894646399422000, 399550793265974756597800,
  399810783100981130468800, 399981004133092756075200, 400090879585839232806400, 400230733102338915689260, 400600574485294972656300,
  400650733894646399422000, 401310793265974756597800, 401410783100981130468800, 401481004133092756075200, 401500879585839232806400,
  401580733102338915689260, 401650634275289436773000, 402850823276434001631700, 403720815272163234278000, 404341078666386129126800,
  404410763576102000927400, 404790634275289436773000, 404810649229816517581250, 405170823276434001631700, 405480815272163234278000]

def emitS25_2 : List Nat := [
  405551078666386129126800, 405600763576102000927400, 405650862993064530978600, 405721155391901400493600, 405730591885472329103900,
  405750695260239733283400, 406350736776690252971200, 406800557776336000392200, 406920886659494341984300, 407231141081817036426200,
  407360758507953353312900, 407860707920802160439700, 408310707920802160439700, 408450562473911964878700, 408570562473911964878700,
  408600770377141229487700, 408630770377141229487700]

def emitS26_0 : List Nat := [
  199691040232358757529200, 199900470344199151880300, 199921006585135095408000, 199940512659271970005200, 199950967638658419235800,
  200070863303697419929600, 200110961386622721102300, 200240728142817106729600, 200250866772253218718600, 200410516907821777097200,
  200521040232358757529200, 200641311037378867750300, 200830671845667528490150, 200940861056411834723800, 201410563390140751359800,
  201610671011634336868200, 201660637459377443517600, 201710915913007009607600, 201790559448470346237800, 201800748275267498686600,
  201850545972923724060700, 202020633272719504238700, 202250499874571036976350, 202380789543803106851800, 202470449768861580204500,
  202620919835078324935700, 202710780706888061842700, 203070498711246955575700, 203230793422405610367400, 203320714679444505905700,
  203840947278762895111700, 203920778249761988792200, 203990842824256155328300, 204330759694504251252100, 204480947278762895111700,
  204670864446567002292000, 204890559448470346237800, 205230919835078324935700, 205250743361998640922100, 206070937270417039413500,
  206250910304060344503300, 206530793422405610367400, 206890778249761988792200, 206930637459377443517600, 207111033778506643772100,
  207360633272719504238700, 207540757698429994998300, 207670937270417039413500, 207990955502572718809000, 208040549853138909708600,
  208061116446363962219000, 208180955502572718809000, 208200682810704178149700, 208440500597248075589100, 208481080778869568345800,
  208560636044259488893400, 208610641953151125893900, 208850872834715400362200, 208920576759459934565700, 208980696618815455185700,
  209010736098080276925000, 209171080778869568345800, 209401311037378867750300, 209640741328030217209900, 209751027716044462128800,
  209760830635274394424700, 209771027716044462128800, 209790740659131402130200, 209950732654860634776600, 210020729326262871429900,
  210480640595943371339600, 210580618871560452637500, 211370618871560452637500, 211530883370766966144800, 211551172407942755761200,
  211830485298813294706650, 211950713402287937956900, 212090883370766966144800, 212180485298813294706650, 212350713402287937956900,
  212420917854815595317700, 212800681142454182156100, 212900698788097916311700, 213070840084358736517000, 213210964463788587777600,
  213300486682828074924300, 213380790636710160070800, 213400871592463400506500, 213610864446567002292000, 213750777283570897618500,
  213970856707900640750000, 214100819039286284937900, 214141172407942755761200, 214160775851565520143600, 214510707011907740008900,
  214740967638658419235800, 214840842824256155328300, 214900461522172813814600, 214941091314921134128500, 214960523944419192236000,
  215190654229587726552700, 215311062546713888950300, 216190592954258963294740, 216460852540631000693000, 216881311037378867750300,
  217360593411925666035960, 217461006585135095408000, 217670651459327471619200, 218970698132357861695800, 219130763810311500602900,
  219300863303697419929600, 219321040232358757529200, 219471033778506643772100, 219710993231995832955800, 219870675600374788015200,
  221220843754495421559600, 222180599560434031104000, 222530590771259215426500, 222750762973486533551200, 222900590771259215426500,
  223291103093224699766700, 223360735147201480022300, 223460678601482629619200, 223500697264673459126900, 223621311037378867750300,
  223630716233879949685700, 223660738027400570392900, 223781054542443121596700, 224040820509901023907400, 224321131861431944944800,
  224340798640980927424400, 224350819039286284937900, 224561011464151512351300, 224660801662358787074100, 224890937270417039413500,
  224951054542443121596700, 224960793422405610367400, 225220488621027603964200, 225301054542443121596700, 225331311037378867750300,
  225610656790182817069900, 225760788462711496430200, 226031027716044462128800, 226090756519634419794100, 226160961386622721102300,
  226180696618815455185700, 226260738027400570392900, 226280937270417039413500, 226360762143606252081700, 226450650507586772930150,
  226590496685638288002300, 226740793988979363935150, 226870717547959305791600, 226971071247851587913200, 227210594488031361665750,
  227270716233879949685700, 227370797457535162724200, 227451103093224699766700, 227510820509901023907400, 227630579316138031766400,
  227711062546713888950300, 227740744394710056507100, 227780744394710056507100, 227810783225912944698600, 228270822002466045575000,
  228290904993077813108300, 228390620964312463233100, 228650702132891323065700, 229000643077460283312000, 229041131861431944944800,
  229180758094470116607950, 229190697264673459126900, 229410758094470116607950, 229420859951428216065300, 229710620261850969536600,
  229961103093224699766700, 230141131861431944944800, 230390793422405610367400, 230410654792969498378300, 230430573888449346322550,
  231100682997794971730800, 231300593871696590898900, 231420697264673459126900, 231560793422405610367400, 231670839187491738240800,
  231860744049286569698300, 232190851525393854291400, 232340685270620079486500, 233440793422405610367400, 233760381983687470704370,
  233810870365454141325000, 233890587187694778313850, 233950618871560452637500, 233960748997292296035300, 234010889086608350139700,
  234290657658495074415900, 234310985227725065602100, 234580526222070247797800, 234661054542443121596700, 234670634188057702887300,
  234700634188057702887300, 234760700112620591313700, 234950903283634477178400, 235170806051778142796700, 235220806051778142796700,
  235280502365586837359800, 235460525057460811539300, 235510783225912944698600, 235760650507586772930150, 236080549064957489483300,
  236141080778869568345800, 236290549064957489483300, 236310676473742784890800, 236330981453692267317400, 236371040232358757529200,
  236530880630869547333400, 236631027716044462128800, 236790797457535162724200, 236960886187854662814400, 237210785810036063087300,
  237251201176150000939400, 237311116446363962219000, 237771311037378867750300, 237921080778869568345800, 238051311037378867750300,
  238300655786590164291300, 239941201176150000939400, 239960797457535162724200, 240050886187854662814400, 240200886187854662814400,
  240400673705399910049100, 240430964463788587777600, 240550694285729778916200, 240620744049286569698300, 240691311037378867750300,
  240720427603681465986600, 240800697697574568085400, 240850699448166319446950, 240860769872773682246300, 240880778736380953909500,
  240900880630869547333400, 240910758492084954571900, 240920921855349056687600, 240930664112347188173050, 241011311037378867750300,
  241070427603681465986600, 241150697697574568085400, 241190829818943330508500, 241250879288567514119300, 241590921855349056687600,
  241610816873136606819900, 241840719957714463697600, 241871040232358757529200, 241880757698429994998300, 241890731128113421697700,
  241960901602922645540200, 242080750090199349254300, 242090743020117966043600, 242140791187675741167800, 242200512727484796661100,
  242370716233879949685700, 242450641953151125893900, 242570856707900640750000, 242580819039286284937900, 242641172407942755761200,
  242660697697574568085400, 242820775851565520143600, 242890743020117966043600, 243000750090199349254300, 243300701005483665743900,
  243310937270417039413500, 243350598992941628501500, 243610739006201207009100, 244180454725166537286600, 244250621570374924402200,
  244330930371129890718300, 244410574392864034990400, 244520592802167679224100, 244590735780114985187000, 244650592802167679224100,
  245090899949992450419200, 245511054542443121596700, 245610939680172197319600, 245770872834715400362200, 246150849525327183624400,
  246460876656836682381900, 246580876656836682381900, 246810690178376258087400, 246871091314921134128500, 248000761320556338430100,
  248470450370559083366300, 248681080778869568345800, 249070872834715400362200, 249170919835078324935700, 249350714166622869213700,
  249360977816927850229900, 249621054542443121596700, 249961080778869568345800, 250000762143606252081700, 250101054542443121596700,
  250220906732252084295400, 250960952685485022139400, 251190729029085832514100, 252160779225379483328700, 256150849525327183624400,
  259190571281225315345100, 259280683749678213133550, 259320515987135386865200, 259410714166622869213700, 259730515987135386865200,
  259910466081724597707700, 259950598509069716679200, 260230699448166319446950, 260311047131645906224400, 260630499784602519886600,
  260860837417534028300800, 260880567493576886295250, 260921033778506643772100, 261020196320725959340500, 261720816161389829933400,
  261780196320725959340500, 262050816161389829933400, 262230604561476088570200, 262300993231995832955800, 262340572700564168512000,
  263790832288204589545800, 264080705593444240813300, 264130824283933822192200, 264150703502775758881900, 264260480168187183860500,
  264410691596839757283100, 264470725530186647507600, 264480781205642212946700, 264540683938535681920400, 264800910304060344503300,
  264851201176150000939400, 264950466060327357870000, 265000796871023217484350, 265171172407942755761200, 265190510600822369793000,
  265240539124394777077050, 265251116446363962219000, 265391001933133531918700, 265440820509901023907400, 265641172407942755761200,
  265750820509901023907400, 265770854602559720966700, 265860872834715400362200, 265880710648672157096400, 266110697697574568085400,
  266130777283570897618500, 266230759694504251252100, 266241027716044462128800, 266290777283570897618500, 266320811994120189876700,
  266380744741330854155800, 266430819771890294145100, 266470906732252084295400, 266570590103353207459400, 266790789543803106851800,
  266901006585135095408000, 266930828206005137520200, 266960535417844472938600, 267000699448166319446950, 267040817589985554681100,
  267050748997292296035300, 267081091314921134128500, 267231201176150000939400, 267570725530186647507600, 267721027716044462128800,
  267860640106944841920460, 267970779225379483328700, 267990689177366898577400, 268250615097527654352750, 268290665832483424027700,
  268370675426612798161200, 268400702815487830105700, 268550811994120189876700, 268650720501194062293300, 268740594797629132178500,
  268850719687078303923300, 268980720229085050857250, 269280923917277776961200, 269410881991434752911200, 269631001933133531918700,
  269821062546713888950300, 269870974307795869102800, 269890512659271970005200, 269991006585135095408000, 270101131861431944944800,
  270140770769640680522400, 270290997487957274835300, 270830796871023217484350, 270840761731234533695500, 270860912138974211322800,
  270880934917367298394100, 271330611552380284443200, 271690660160465170582100, 271710789543803106851800, 271830919835078324935700]

def emitS26_1 : List Nat := [
  271850930371129890718300, 271970880630869547333400, 272250787393182584755400, 272310480168187183860500, 272490942149433456356700,
  272570761731234533695500, 272640883370766966144800, 272651150093587624340300, 272800726682937164614400, 272841201176150000939400,
  272990919835078324935700, 273051150093587624340300, 273310710648672157096400, 273470761731234533695500, 273590744741330854155800,
  273650942149433456356700, 273870930371129890718300, 274530912138974211322800, 274650832288204589545800, 274940841902590644836000,
  275801062546713888950300, 275831103093224699766700, 275970787393182584755400, 276170732963027288517400, 276271116446363962219000,
  276560732963027288517400, 276630550597743988116500, 276650470344199151880300, 277130693450651857174200, 277390886187854662814400,
  277440684697552608587900, 277450779716780963571600, 278130849525327183624400, 278360799237997626074800, 278411080778869568345800,
  278490826618670221891200, 278500647442723299085700, 278750778736380953909500, 279010930371129890718300, 279460890568116928653600,
  279540680592498625552200, 279940758492084954571900, 280370714936844905422900, 280530887626728408024400, 280591150093587624340300,
  280680869153318088090500, 280710750090199349254300, 280790859951428216065300, 280820584774518770326200, 281490729326262871429900,
  281700729326262871429900, 281800970917640701534700, 282010997487957274835300, 283040514865497269613800, 283301091314921134128500,
  283310997487957274835300, 283400780706888061842700, 283640869153318088090500, 283920690379786195257600, 283930673194760502591600,
  284170970917640701534700, 285670750090199349254300, 285770836544166031425400, 285800930371129890718300, 286441150093587624340300,
  286570690379786195257600, 286890827409188172602600, 287010849525327183624400, 287600673194760502591600, 288091241722660811755800,
  288140666624253197706300, 288910729326262871429900, 289661241722660811755800, 291411040232358757529200, 291650729326262871429900,
  292001241722660811755800, 292260656502412834308400, 292370693242967462690300, 292380558797355729037800, 292390537406669212921800,
  292420537406669212921800, 292821241722660811755800, 292871311037378867750300, 292890431827985917421750, 293120830635274394424700,
  293220877964044839117200, 293460877964044839117200, 293560670184499761800500, 293660452309498969457800, 293760452309498969457800,
  293800917854815595317700, 293920874092593621048200, 294220997487957274835300, 294250678243700494830800, 294540731736018029336000,
  294920634303066341211100, 295030695764109397339900, 295080678243700494830800, 295090997487957274835300, 295570731736018029336000,
  295600641953151125893900, 296260872834715400362200, 296450735463157509059150, 296640581192868716935600, 297560989149796380930200,
  297901103093224699766700, 297910791741693778729250, 298541033778506643772100, 298850872834715400362200, 298980989149796380930200,
  299230829818943330508500, 299240871592463400506500, 299430644851904813219200, 299671006585135095408000, 300360711143722673082000,
  300440688978361857776400, 300541011464151512351300, 300720883370766966144800, 300970740659131402130200, 301230834819985387974700,
  301420655359543251946100, 301510620161900936228250, 301650744741330854155800, 302010828206005137520200, 302020828206005137520200,
  302441150093587624340300, 302940892071904665107800, 303430524097207610041400, 304050947278762895111700, 304100910304060344503300,
  304170700112620591313700, 304180864446567002292000, 304310893598651878186500, 304350700112620591313700, 304460494217085844145100,
  304500777283570897618500, 304570901602922645540200, 304901131861431944944800, 305180839187491738240800, 305260449768861580204500,
  305550822002466045575000, 306900720501194062293300, 306970807342118626387300, 307070474098479202966000, 307460801050736085330500,
  307570961386622721102300, 307590899949992450419200, 307780871592463400506500, 307840754585338135481000, 308310801050736085330500,
  308790779225379483328700, 308830985227725065602100, 308870650914366994862700, 308990993231995832955800, 309130609018308036557800,
  309280857777429552424700, 309560892071904665107800, 309900754585338135481000, 310180871592463400506500, 310480985227725065602100,
  310491116446363962219000, 310620809973849458124700, 310720713656417680824200, 310770834819985387974700, 311030798047507375442900,
  311080798047507375442900, 311090645493343830985560, 311460645493343830985560, 311650739664098316813400, 311660726393501361977900,
  311740803519997344367600, 311920714679444505905700, 312090734832240589732600, 312321241722660811755800, 312400803519997344367600,
  312550934917367298394100, 312910677177971047432100, 312950642701284291122800, 313480639620325876803200, 313730766795607815571000,
  313771311037378867750300, 313830647180599951098200, 313910634533481189696150, 314071311037378867750300, 314290766795607815571000,
  314810576371862550096500, 314870758094470116607950, 314991311037378867750300, 315150869153318088090500, 315481131861431944944800,
  315651311037378867750300, 315670801662358787074100, 315700723544305782547250, 315740599723167997041500, 316070906732252084295400,
  316570889086608350139700, 316590805412798332919500, 316841116446363962219000, 316860723825599920208700, 316991001933133531918700,
  317050883370766966144800, 317261241722660811755800, 317510784251562961417500, 317550893598651878186500, 317571001933133531918700,
  317870805412798332919500, 317990726682937164614400, 318060778736380953909500, 318070698569039778329900, 318090928173239218840800,
  318111241722660811755800, 318210643834084321643550, 318390928173239218840800, 318401131861431944944800, 318540889086608350139700,
  318690821253398872659300, 319031047131645906224400, 319291022000203078134000, 319570778736380953909500, 319830771674624232514200,
  320000816161389829933400, 320110595497748678076900, 320320812676716696916700, 320340928173239218840800, 321560736417059813735000,
  321620757303952165896600, 321720874092593621048200, 321731241722660811755800, 322100825834352475788500, 322220717547959305791600,
  322390659418071263453900, 323180848540097539323100, 323610703502775758881900, 323650726682937164614400, 324030821253398872659300,
  324060749724568228943300, 324200749724568228943300, 324260816161389829933400, 324280659418071263453900, 324410595497748678076900,
  324890848540097539323100, 324900825834352475788500, 324990703502775758881900, 325001241722660811755800, 325020874092593621048200,
  325040757303952165896600, 325080736417059813735000, 325260717547959305791600, 325520821253398872659300, 325600815454673107624300,
  325730738352604109030600, 326260668875152087098500, 326600947278762895111700, 326810516907821777097200, 326970783737423011375600,
  327010981453692267317400, 327050687400419847379850, 327090607071343881542700, 327180889086608350139700, 327221311037378867750300,
  327360705593444240813300, 327520788462711496430200, 327640611644081345431400, 327740816161389829933400, 328440501112322688054200,
  328870501112322688054200, 329020949945587603327900, 329080630243884497757700, 329200755354572697796600, 329220695339480309194800,
  329300730223129869705900, 329320775378751400549100, 329570758891287081525700, 329610775851565520143600, 329931311037378867750300,
  330030840989342288508700, 330070824283933822192200, 330080799838600032096000, 330160592498677309708600, 330290775851565520143600,
  330320558581256239214300, 330330558581256239214300, 330340665203550533271300, 330371071247851587913200, 330400851525393854291400,
  330460788462711496430200, 330510840989342288508700, 330980733272146545484650, 330990807342118626387300, 331081103093224699766700,
  331090776803953671269200, 331201062546713888950300, 331450597787623701745900, 331760919835078324935700, 331780775378751400549100,
  331790719417172607006800, 331810675426612798161200, 332030679140567493106850, 332141071247851587913200, 332160763810311500602900,
  332180942149433456356700, 332221033778506643772100, 332290851525393854291400, 332400733272146545484650, 332511172407942755761200,
  332760817589985554681100, 332851103093224699766700, 333220615478118028120600, 333280550299236303771200, 333340869153318088090500,
  333350813364004625692900, 333511201176150000939400, 333820550299236303771200, 333911241722660811755800, 333940486919763818254400,
  334020719147993440435700, 334260724958756521163750, 334550687204916363799500, 334590898323940363241200, 334651150093587624340300,
  334790829009222307246700, 334851040232358757529200, 334890730523881976101500, 334920668550476477211600, 335020743361998640922100,
  335391116446363962219000, 335561027716044462128800, 335590777283570897618500, 335750726682937164614400, 335801071247851587913200,
  335890964463788587777600, 336180735780114985187000, 336360772587872588841400, 336430977816927850229900, 336550605161563615883850,
  336740901602922645540200, 337140607598585876200000, 337220748997292296035300, 337331241722660811755800, 337350839187491738240800,
  337380697264673459126900, 337770717283758359507700, 337890964463788587777600, 337950923917277776961200, 338651091314921134128500,
  338940829009222307246700, 338971172407942755761200, 339110772587872588841400, 339801040232358757529200, 340300607598585876200000,
  340710829009222307246700, 340920947278762895111700, 340930977816927850229900, 341210757698429994998300, 341220838298596996516200,
  341370889086608350139700, 341741241722660811755800, 342181022000203078134000, 342690719147993440435700, 342810685462374692413600,
  342990662573855304225100, 343261001933133531918700, 343271001933133531918700, 343491080778869568345800, 343830634995909759407500,
  343960634995909759407500, 343980889086608350139700, 344330721047643509501150, 344420765933533511180300, 345210701229950651126300,
  345270799838600032096000, 345320858858521162846200, 345621172407942755761200, 346310746492689103426500, 346380805412798332919500,
  346780815454673107624300, 347460696618815455185700, 348090690379786195257600, 348110721047643509501150, 348210746492689103426500,
  348290805412798332919500, 348990703502775758881900, 349150547121261701833000, 349230725244063419404400, 349460939680172197319600,
  349570663957428489490100, 349661150093587624340300, 349720844693469456543700, 350330698350460456331850, 350440722984080227680300,
  350590887626728408024400, 350700934917367298394100, 350740717020253595707100, 350880795708219417972450, 351220722984080227680300,
  351260766363641701119300, 351401040232358757529200, 351780844693469456543700, 352150656934378948760000, 352680656934378948760000]

def emitS26_2 : List Nat := [
  352900944681214254785800, 353380518413226550654100, 353630760098545204952600, 354120579249759005100800, 354650783225912944698600,
  354860550199931429672000, 355160841902590644836000, 355650651459327471619200, 355820825056138431583200, 355940739334608727128100,
  356160869153318088090500, 356281027716044462128800, 356760814752915841759600, 356860738027400570392900, 357090783225912944698600,
  357590518413226550654100, 357760760098545204952600, 357910579249759005100800, 358210550199931429672000, 358340825056138431583200,
  358500841902590644836000, 358540739334608727128100, 358610651459327471619200, 358750869153318088090500, 358841027716044462128800,
  358890814752915841759600, 358950560818730207457900, 359370782717005993951400, 359611150093587624340300, 359770863303697419929600,
  359800693035713502493100, 360020899949992450419200, 360120634533481189696150, 360311311037378867750300, 360340926022618696744500,
  360360850520360268941100, 360390568859799503285600, 360660631690765609749400, 360740493341992045172300, 361150890568116928653600,
  361290899949992450419200, 361310634533481189696150, 361320631690765609749400, 361360493341992045172300, 361521311037378867750300,
  361590850520360268941100, 361620926022618696744500, 361630890568116928653600, 361640568859799503285600, 362590789001796359917850,
  362990745788460840885200, 363210694705898464286200, 363240816161389829933400, 363940739994677130263300, 364200744049286569698300,
  365230429797688341063800, 365240813364004625692900, 365270793422405610367400, 365440793422405610367400, 365560708692619571647100,
  365620977816927850229900, 366280738352604109030600, 366370904993077813108300, 366590887626728408024400, 366670814056048910150300,
  366860629035742400337300, 367120708692619571647100, 367130977816927850229900, 367350629035742400337300, 367410738352604109030600,
  367450904993077813108300, 367510887626728408024400, 367520814056048910150300, 367790825056138431583200, 367820825056138431583200,
  367840716495318007092800, 367850768542377119610000, 367860576759459934565700, 368570694705898464286200, 368700750457172238150600,
  368840693658768477556600, 368950568680534441833600, 369510799838600032096000, 369530779716780963571600, 369650779716780963571600,
  369860799838600032096000, 370090669855552096760600, 370300611827736126161500, 370660777765499541213400, 370700605075616038612000,
  371941071247851587913200, 371950821253398872659300, 372280745438197785765060, 372310728142817106729600, 372910840084358736517000,
  373220686426702319594000, 373230686426702319594000, 373290465633341226653500, 373370890568116928653600, 373560985227725065602100,
  373650825056138431583200, 373670822757186609113200, 373960673364684077887600, 374220816161389829933400, 374280725244063419404400,
  374310744741330854155800, 374661033778506643772100, 374700861056411834723800, 374840739664098316813400, 374850814752915841759600,
  374920870365454141325000, 374991172407942755761200, 375040455646301432610300, 375070850520360268941100, 375280778736380953909500,
  375411027716044462128800, 375630728732789319448400, 375860896723906228597100, 376560722705140018922400, 376700653251243095645700,
  376971150093587624340300, 377500829009222307246700, 377841047131645906224400, 378041016593480951106300, 378270802277745344512000,
  378320628600011863441700, 378570605592413054456300, 379340793988979363935150, 379690870365454141325000, 380000858858521162846200,
  380270890568116928653600, 380290822757186609113200, 380300985227725065602100, 380390825056138431583200, 380460673364684077887600,
  380530858858521162846200, 380540912138974211322800, 380600919835078324935700, 380680744741330854155800, 380690738352604109030600,
  380740861056411834723800, 380760739664098316813400, 380770814752915841759600, 380830725244063419404400, 380861033778506643772100,
  380920816161389829933400, 381241172407942755761200, 381250778736380953909500, 381291027716044462128800, 381310850520360268941100,
  381340455646301432610300, 381420628600011863441700, 381550896723906228597100, 381610728732789319448400, 381800722705140018922400,
  381820653251243095645700, 381841150093587624340300, 381980829009222307246700, 382171047131645906224400, 382241016593480951106300,
  382360605592413054456300, 382380802277745344512000, 382560793988979363935150, 383070609197198960830300, 383330937270417039413500,
  383480837417534028300800, 383570985227725065602100, 384010609197198960830300, 384040930371129890718300, 384130937270417039413500,
  384170837417534028300800, 384250985227725065602100, 384510660908411813711400, 384530573136566104919900, 384540601613894275274800,
  384690657803949645515400, 384700816161389829933400, 384990573136566104919900, 385170609376410478328400, 385200816161389829933400,
  385250660908411813711400, 385330779716780963571600, 385420601613894275274800, 385520910304060344503300, 385530726973213130410500,
  385550657803949645515400, 385560780210609127629900, 385670952685485022139400, 385820923917277776961200, 385840923917277776961200,
  385920739994677130263300, 385960696404453100860600, 386010776326625796003440, 386070854602559720966700, 386190854602559720966700,
  386490844693469456543700, 386860942149433456356700, 387010886187854662814400, 387240886187854662814400, 387720756519634419794100,
  387741241722660811755800, 387970710895891071635300, 388291241722660811755800, 388490815454673107624300, 389500869153318088090500,
  389600731128113421697700, 389680629035742400337300, 389710712895957742302200, 389910814056048910150300, 390250796287931186405000,
  390450796287931186405000, 390480629035742400337300, 390500731128113421697700, 390550869153318088090500, 390570712895957742302200,
  390680814056048910150300, 391380745438197785765060, 391710852540631000693000, 391800823517646547635200, 391840727264334151156300,
  392010818312010352029900, 392080595419715119688800, 392690745438197785765060, 392850823517646547635200, 392900852540631000693000,
  393010818312010352029900, 393020595419715119688800, 393150947278762895111700, 393360836544166031425400, 393780865602649242399600,
  394230789001796359917850, 394860767229447975430800, 395251103093224699766700, 395450865602649242399600, 395670789001796359917850,
  395850767229447975430800, 395891103093224699766700, 395920517442868532380200, 396360498711246955575700, 396630780706888061842700,
  396830856707900640750000, 396990807342118626387300, 397140807342118626387300, 397150926022618696744500, 397260930371129890718300,
  397300915913007009607600, 397480824283933822192200, 397640631690765609749400, 398810747916200685613750, 399120722705140018922400,
  399451150093587624340300, 399950840989342288508700, 400550769872773682246300, 401000747916200685613750, 401200722705140018922400,
  401320769872773682246300, 401351150093587624340300, 401510840989342288508700, 401790741328030217209900, 401821016593480951106300,
  401980826618670221891200, 402320646919161893691200, 402510910304060344503300, 402550845641343851997900, 402880770769640680522400,
  403060731128113421697700, 403460802277745344512000, 403611001933133531918700, 403670748997292296035300, 403860917854815595317700,
  404070853566281017412000, 404420890568116928653600, 404821016593480951106300, 404850853566281017412000, 404890826618670221891200,
  404930646919161893691200, 405090845641343851997900, 405110910304060344503300, 405160770769640680522400, 405220731128113421697700,
  405350802277745344512000, 405401001933133531918700, 405420917854815595317700, 405570890568116928653600, 405950724958756521163750,
  406070865602649242399600, 406130615764514405263500, 406140615764514405263500, 406530833125029556597400, 406670811994120189876700,
  407180651459327471619200, 407360997487957274835300, 407630595185979134818300, 407790598509069716679200, 408010775851565520143600,
  408360775851565520143600, 408530780210609127629900, 408590780210609127629900, 408601311037378867750300, 408631311037378867750300]

def emitS27_0 : List Nat := [
  199690476936099753515650, 199920606952620492510900, 199950609409746565561300, 200160694305507746118200, 200250553235175146236600,
  200290649956257376377800, 200400437008785967491300, 200410524148327164117800, 200520642412286616220300, 200600824040195256457700,
  200641209054955427463400, 201150781388343525857900, 201300712073625469863400, 201360600150467882778800, 201671209054955427463400,
  201690845296339454824900, 201710683827612622800500, 201790415246082737768200, 201890875834504409943000, 202100673869142079856900,
  202131014463940521932100, 202331001110801259479800, 202370840167010016069900, 202550621281377249499600, 202620640696978693595300,
  202710541598816246020800, 203120879471268827030500, 203190690316374843387950, 203650534179000678295600, 203840759073988394436900,
  203921099193726560652500, 203990534649036796328800, 204260569029210896581400, 204300837697748757032700, 204460760191318454249500,
  204480759073988394436900, 204720628541458535814600, 204890415246082737768200, 205210920017779637847000, 205220732837561947687900,
  205230640696978693595300, 205530621281377249499600, 205810559982601977212700, 206130638012253689976600, 206160920017779637847000,
  206250627343839431143000, 206891099193726560652500, 208480817852654884648800, 208640769610039960219600, 208730719270975432372300,
  209110641037694525756800, 209170663522843891693400, 209240945149222465937600, 209400711381581185406000, 209640674344202355716600,
  209750632849817149445800, 209770632849817149445800, 209931014463940521932100, 210160409221415832165200, 211290409221415832165200,
  211690865656234978948900, 211911029879008504658000, 212370865656234978948900, 212810835287993599126600, 213310656908863641238800,
  213380527820446009715600, 213400581956112241633500, 213420813930583569320700, 213460679724472955014200, 213551029879008504658000,
  213610689759270338442500, 213750551407998522641000, 213850729475900867789400, 214260729475900867789400, 214740609409746565561300,
  214840522570177630377400, 214940784205431222527600, 215250551966659193505000, 215550343550929616627200, 215560343550929616627200,
  215700551966659193505000, 215930920017779637847000, 216080347206411137652500, 216880787104184909852800, 217460673396327960262200,
  217760455045923412931000, 218950641722628710314250, 219320642412286616220300, 219470746557674099036400, 223620653372149257509700,
  225330653372149257509700, 225750660991063093264300, 227810618518770622006500, 227970688106340143321400, 228040690876600398254900,
  228550727026798866959800, 228620741772071981272900, 228740680228252358009900, 229250696658557487137600, 229890899950710091631800,
  229990899950710091631800, 230020724636246781604300, 230200658116121764665800, 230410563221127092984500, 230440819872925616400700,
  231050819872925616400700, 233800682785936536974900, 233850422114784169754600, 233951014463940521932100, 234030422114784169754600,
  234310678228185687343000, 234350405689112638848500, 234390629753594589049100, 234430728652850954137850, 234510765973275543132100,
  234590589818706479976300, 234620679724472955014200, 234660716329586911743000, 234670458836306767171000, 234700458836306767171000,
  234760762464143562005100, 234861070425519315474400, 234950647014868855748500, 235060688106340143321400, 235250801301211036891600,
  235510618518770622006500, 235610631289723105197800, 235720423927755716475100, 235910660991063093264300, 236090639681741547193550,
  236970826190815778554000, 237060806519786353948500, 237210473682722387500400, 237810891249572392668900, 237920538981844472682400,
  238150590846464755800300, 238280631289723105197800, 238420891249572392668900, 238790931796083203485300, 238880806519786353948500,
  240130671065220073417600, 240410845296339454824900, 240430674344202355716600, 240690761321273979642800, 241010761321273979642800,
  241860635397725679544300, 241960511794330297288200, 242180754725477200463100, 242200461464358490723700, 242220730305781149258900,
  242470638676707961843350, 242490945149222465937600, 242540793166647091496300, 242780645219488494088900, 243440686480288056143400,
  243650837697748757032700, 244290557880422462990700, 244590509753443134167400, 244600514549849054880100, 244640493359318965899800,
  245440477799605617203700, 245710799620499205253400, 246460532666464571219900, 246580532666464571219900, 246610684880253921499300,
  246810538858918827209400, 247010899950710091631800, 248000646292844058399750, 248180899950710091631800, 249100821934854336674400,
  249170675301147457331650, 250100716329586911743000, 250960713472249667337400, 251020619339568663789400, 251140663951110070893400,
  251220895505533834548500, 251600817852654884648800, 252150548525163332643300, 259420770852291960075300, 259580717789466853858300,
  259960739006918848221900, 260310539104921411295650, 260440656112046676321100, 260930725426764732315600, 261030817852654884648800,
  261220731142606116310600, 261240682269139521130600, 261410960564290448663400, 261770657309665780992700, 261910755795006112137900,
  261980764789829778431900, 262160626454944689418450, 262220460843063072251900, 262300580269099411285000, 262340608666248716809600,
  262490764789829778431900, 263360817852654884648800, 263420699679935346787200, 263610489461232779906600, 263910553946921923123000,
  264170469482794567258900, 264200689759270338442500, 264460333623101402376900, 264600645933777245326900, 264720383966840957398600,
  264800627343839431143000, 264820842698790814498900, 265390714178966389646700, 265750741772071981272900, 266071029879008504658000,
  266470739920167204549100, 266860960564290448663400, 266880788585693488366900, 266900694305507746118200, 267050684880253921499300,
  267080812025764072251400, 267260679724472955014200, 267570647377845660806400, 268620617434749166719900, 269540383966840957398600,
  269630714178966389646700, 269700531976013036565500, 269760978796446128059000, 269900920017779637847000, 269990819872925616400700,
  270540773384072758504300, 270880681754999571088850, 271460784205431222527600, 271850693149425506010500, 271920689759270338442500,
  271940679724472955014200, 272640647742144788656500, 273870693149425506010500, 274100960564290448663400, 274270696658557487137600,
  274530615301334919220800, 274940513495694587833700, 275710819872925616400700, 275750644864248333652150, 275890706011163288219900,
  275951139740237371468900, 276051070425519315474400, 276110398494015197473900, 277410636696445232225400, 277430402906268740330800,
  277440707326971745971000, 277540830635992035637300, 277790701537573904080800, 277840656112046676321100, 278110739006918848221900,
  278410663522843891693400, 278720812025764072251400, 278860978796446128059000, 279010607195633977840000, 279150684352548211414800,
  279460584638265361089900, 279650793166647091496300, 280060735435110588014000, 280090648474748797863750, 280590737205068297954000,
  281340761321273979642800, 282510914611057510819400, 283250853520149278522100, 283730757969004775778500, 285040651081972828841200,
  285581029879008504658000, 285800607195633977840000, 286440737205068297954000, 286540767170894647803700, 287390739006918848221900,
  288280856418902965847400, 289040899950710091631800, 289520775981621398830300, 289660830635992035637300, 290100856418902965847400,
  290300887167372940643300, 291210899950710091631800, 291410538002644482220700, 291820775981621398830300, 292450660161182811794860,
  292460423927755716475100, 292790680734582553664600, 292870693725795977685600, 293800664813184375284100, 293920671065220073417600,
  295790267996585087057500, 295950585222492923512700, 296140615565535865504700, 296180797967569010132400, 296411099193726560652500,
  297220794741482788310200, 297340769610039960219600, 297470797967569010132400, 297560746557674099036400, 297710615565535865504700,
  297880627343839431143000, 298010830635992035637300, 298020585222492923512700, 298220788585693488366900, 298400850703061581852500,
  298520883245301625315300, 298540763620225802112700, 298650960564290448663400, 298980746557674099036400, 299060761321273979642800,
  299140761321273979642800, 299560821934854336674400, 299690742711046016256750, 299760610409754899019700, 300501070425519315474400,
  302591209054955427463400, 304100610158813738477200, 304390679724472955014200, 305090978796446128059000, 305620678724464621555900,
  306550808321636904216400, 306831209054955427463400, 306990697255574185788000, 307030697255574185788000, 309220777306144073832400,
  310410788585693488366900, 310620565760946153545500, 310770655716006554711400, 311030681243489504411800, 311080681243489504411800,
  311610658929134372990800, 312060423539254839329000, 312930635720827737688900, 313020736316173556229450, 313100634754636646515300,
  313980599023060225457100, 314310599023060225457100, 314610614251456509398900, 314820797967569010132400, 315261209054955427463400,
  315300817852654884648800, 316160865656234978948900, 316840600377482736232800, 317770865656234978948900, 319030664813184375284100,
  319210759073988394436900, 319640712073625469863400, 320000604554424023862300, 320340617975291023410700, 320570612440281515094300,
  321661029879008504658000, 321730585027370910386500, 323260842698790814498900, 323610670605449148554560, 324260604554424023862300,
  324610612440281515094300, 324990670605449148554560, 325000585027370910386500, 325540842698790814498900, 326520627046662392227300,
  326730777306144073832400, 326800777306144073832400, 326810524148327164117800, 327010575549530277657600, 327030891249572392668900,
  327050622408149734133800, 327221209054955427463400, 327240734561742591138400, 327350729475900867789400, 327420782786967723331900,
  328290763620225802112700, 328310774674413242095100, 328340810156550771036000, 328860810156550771036000, 328990557140226633423900,
  329010557140226633423900, 329030751583857577125200, 329180694888599777197500, 329930458891509639122100, 329970810156550771036000,
  332550750558207560406300, 332600847963164163041000, 332750791616228437899800, 332980667890350241959500, 333220677734357523284700,
  333910694305507746118200, 334050752620136280679800, 334060638676707961843350, 334460728652850954137850, 334490828388706450431500,
  334540872325372428816200, 334590605506812174987800, 334650808321636904216400, 334840788585693488366900, 334850761321273979642800,
  334890664813184375284100, 335031014463940521932100, 335310665682755072039500, 335390600377482736232800, 335410649212759527626000,
  335420978796446128059000, 335480960564290448663400, 335640824040195256457700, 335930842698790814498900, 336000749542970414004500]

def emitS27_1 : List Nat := [
  336060701537573904080800, 336100701537573904080800, 336260712770492401472700, 336350773384072758504300, 336591048111164184053500,
  336740511794330297288200, 336880872325372428816200, 336980712770492401472700, 337210830635992035637300, 337250752620136280679800,
  337290801301211036891600, 337330952560019681309800, 337990788585693488366900, 338040868935217261248000, 338050689205252300880900,
  338310601981182627214500, 338320608666248716809600, 338650784205431222527600, 338830698460408037405400, 338910588397362754970700,
  338991139740237371468900, 339291070425519315474400, 339310679724472955014200, 339670952560019681309800, 339700563377989870247100,
  339800761321273979642800, 339830704069354702509700, 340150682785936536974900, 340281099193726560652500, 340440732837561947687900,
  340740757969004775778500, 340810539351530660815000, 340830679724472955014200, 341060952560019681309800, 341461070425519315474400,
  341570601981182627214500, 341740759073988394436900, 341860682785936536974900, 342030624700513724327500, 342040819872925616400700,
  342170608666248716809600, 342980952560019681309800, 343100728652850954137850, 343490817852654884648800, 343980751583857577125200,
  344020737205068297954000, 349071029879008504658000, 349130690316374843387950, 349450481192061195395200, 350280681243489504411800,
  350290616096041088474100, 350320745582056604499850, 350600648843073339493400, 350980693149425506010500, 352031029879008504658000,
  353900952560019681309800, 354490586203855068345200, 355740709333728051052000, 355820538981844472682400, 356090677242956043041800,
  356280747542903743337600, 356730749542970414004500, 356740734561742591138400, 358340538981844472682400, 358520709333728051052000,
  358780677242956043041800, 358840747542903743337600, 358850734561742591138400, 358870749542970414004500, 358950642412286616220300,
  359200694305507746118200, 359980645219488494088900, 360020591676345037269800, 360110567381727176230800, 360330830635992035637300,
  360400496687676907002700, 360511070425519315474400, 360650909481728072064400, 361231099193726560652500, 361260645219488494088900,
  361290591676345037269800, 361430567381727176230800, 361460830635992035637300, 361580496687676907002700, 361790909481728072064400,
  361951099193726560652500, 362030682269139521130600, 362130469421426047382700, 362490469421426047382700, 364230748537936828654350,
  365620633480734068772300, 366370604791672059225300, 367130633480734068772300, 367450604791672059225300, 367630612697021065618850,
  367640791616228437899800, 368420649212759527626000, 368461029879008504658000, 368680969265428147626400, 369110830635992035637300,
  369130347206411137652500, 369810600605014119946400, 370110578976375961139040, 370210914611057510819400, 370260614775017914793400,
  370360639010598088394800, 370400925733621021842000, 370410664381218260832450, 370441070425519315474400, 370450714890713166533050,
  370480629753594589049100, 370490808321636904216400, 370570737205068297954000, 370600909481728072064400, 370630931796083203485300,
  370710755795006112137900, 370730495805200261459100, 370791209054955427463400, 370841001110801259479800, 370850674821530230982350,
  370870755795006112137900, 370940989332497693841600, 371010567218461833842400, 371380808321636904216400, 371400639010598088394800,
  371540761321273979642800, 371590578976375961139040, 371650495805200261459100, 371780914611057510819400, 371900753667266267409400,
  371920989332497693841600, 373510826190815778554000, 373800952560019681309800, 373970819872925616400700, 374920663522843891693400,
  375550711381581185406000, 375860636370180668743800, 377490938249935317242400, 377580755795006112137900, 378910799620499205253400,
  379081048111164184053500, 379440732837561947687900, 379690663522843891693400, 379950623834707450016100, 380310826190815778554000,
  380540615301334919220800, 380610952560019681309800, 380620819872925616400700, 380940732837561947687900, 381050799620499205253400,
  381550636370180668743800, 381600711381581185406000, 381900938249935317242400, 382020755795006112137900, 382411048111164184053500,
  382780738101935296230050, 382870728652850954137850, 382920734561742591138400, 383170726223581697233400, 383310697255574185788000,
  383570685944093742004850, 383661001110801259479800, 383790738101935296230050, 383840728652850954137850, 383890734561742591138400,
  383980726223581697233400, 384140697255574185788000, 384250685944093742004850, 384261001110801259479800, 384460630672437194489700,
  384510646292844058399750, 384700701537573904080800, 384720385174838840308540, 384850712073625469863400, 384930712073625469863400,
  385150385174838840308540, 385180591260544022403400, 385200701537573904080800, 385250646292844058399750, 385340581390606493299100,
  385390533245504984690400, 385510909481728072064400, 385960644157531611342900, 386050686480288056143400, 386100684352548211414800,
  386390790089481224820900, 386600813930583569320700, 386690707991426017837900, 386780856418902965847400, 386861209054955427463400,
  387420751583857577125200, 387710931796083203485300, 387990845296339454824900, 388160780009011312624350, 388590616629375686010300,
  388671209054955427463400, 388860616629375686010300, 388891209054955427463400, 389020850703061581852500, 389450713472249667337400,
  389910710011696749589800, 390490713472249667337400, 390620634754636646515300, 390680710011696749589800, 392501139740237371468900,
  392861139740237371468900, 393420641037694525756800, 394090759073988394436900, 394981001110801259479800, 395250920017779637847000,
  395571001110801259479800, 395580759073988394436900, 395890920017779637847000, 397290737205068297954000, 397590487237271587122760,
  397911209054955427463400, 398250742711046016256750, 400651209054955427463400, 400770742711046016256750, 401790674344202355716600,
  402510608666248716809600, 403000559679571442294850, 404770945149222465937600, 404780689205252300880900, 405100689205252300880900,
  405110608666248716809600, 405140945149222465937600, 405270559679571442294850, 405750842698790814498900, 405990649956257376377800,
  406130640357419793481500, 406140640357419793481500, 406280904602711655121200, 406360437008785967491300, 408480730305781149258900,
  408520747542903743337600, 408580747542903743337600]

def emitS31_0 : List Nat := [
  200410042028019389330500, 217760179175946922805500, 326810042028019389330500, 368680232238772029022500, 370490283321334405621600,
  371380283321334405621600, 385180393182563272432570]

def emitS32_0 : List Nat := [
  234390000000000000000000]

def emitS33_0 : List Nat := [
  200510401044055546524000, 214850324770008310610000, 215010420911125026072400, 215050871997075677757400, 215530291483578786108580,
  215960230160582084136320, 216520390778640140515700, 216530357830720027491460, 216580325191061564244330, 216610382962162855582070,
  216670432552160210513600, 216730510905284413335000, 216770453031601475114900, 217120401949039098515800, 217140337286322606010600,
  217190641738566378352900, 217260582959899888140900, 217340733367639565768400, 217350386794049285795700, 218630531877337511541900,
  218660268448932425281800, 218880554191692642962900, 219080508238459705118800, 219390471263757154510400, 219410528598355229242860,
  219700386015835241590200, 219740398377230838307870, 219780230160582084136320, 219850375015745720157370, 220050386015835241590200,
  220300277455014817099900, 220380531877337511541900, 220470411480057078948300, 220510405653166266550700, 220520326038524263341540,
  220570641738566378352900, 220610453031601475114900, 220640420911125026072400, 220700733367639565768400, 220750302623861797487460,
  220920493578112285931300, 221000432552160210513600, 221030353818720648548930, 221090382962162855582070, 221120337286322606010600,
  221630396638056567121000, 221980326038524263341540, 246140711053284434347400, 267580428915395793426100, 272160401044055546524000,
  275750762135846810946500, 307290508238459705118800, 307680323933183343558300, 318580871997075677757400, 326510510905284413335000,
  334160510905284413335000, 378470542413389077324600, 378480480794775134942800, 378520513645181832146400, 379460567544831905415100,
  381070567544831905415100, 381430542413389077324600, 381970480794775134942800, 382310513645181832146400, 391000510905284413335000,
  391250510905284413335000]

def emitS34_0 : List Nat := [
  199820276784359358773500, 200260210521550714896980, 200460906672651016625200, 201100310040796449630650, 201740305853410045985850,
  201970294585148531898700, 209730654554426757210200, 215160435766079862026900, 215210371320854424505860, 222400429560514725629400,
  223120130428395053910130, 235450263217171751386840, 235650263217171751386840, 244030424237939239425800, 244480494844395744970700,
  244780305853410045985850, 249770654554426757210200, 252260318288735547446460, 253530476768936051524000, 254540479091986692291450,
  258180479091986692291450, 260440310040796449630650, 263670621936269666725000, 263970529717013240698800, 276040426974386633569200,
  278390641668408290166250, 288580210521550714896980, 299920359460745502285100, 300010368621174072909100, 300700424237939239425800,
  321020370778452180177930, 321470481155258929758700, 322271225514312754974400, 323271020745028418448700, 324630481155258929758700,
  324730370778452180177930, 325361225514312754974400, 332580433942992816762700, 332670385836768961264500, 332870276784359358773500,
  349870326629142695722500, 362250959838622083508300, 363170656014915892662100, 363190494442587067756000, 385000503742460530083600,
  387740867859285840972600]

def emitS35_0 : List Nat := [
  199760703521925491961750, 199920750791709324904500, 199950859224342466967700, 199970651546500040932600, 200100264704563246331140,
  200181244239102637973600, 200240756338417476191700, 200390845340697981546200, 201230385390095308146500, 201370686077618569774300,
  201900987744166891820000, 201950503811190834246900, 202140541463295500290300, 202210543298209367109900, 202391024516644904351600,
  202490649435603719909000, 203010436665288080481900, 203911174924384581979100, 204910264704563246331140, 204930617994559854338500,
  205961174924384581979100, 208030423090810993467100, 208110526041892589938900, 208740686266120039351400, 208760686266120039351400,
  209921174924384581979100, 209980348327222985256000, 210580723838433930294100, 211370723838433930294100, 212420758257862201806400,
  212770847209911282761400, 213050679517890321192900, 213501244239102637973600, 213670558120338321393400, 214000726342041746426600,
  214100724389399511391000, 214740859224342466967700, 214750395534781191438200, 214770523787005621277600, 214880455819109270369700,
  214941118962805788436800, 214950448468863071077100, 215170397417801718521750, 215440480926341954291700, 215920596927223280604300,
  216080963903064547320200, 217290596927223280604300, 217360790442959008509500, 217370881805009340337200, 219710963903064547320200,
  221360480926341954291700, 222530983970134093535300, 222800666319191243878100, 222900983970134093535300, 223300509605828783923300,
  223590528777566946607400, 223630768021709158198000, 223760976824237695320700, 224271049648087732442300, 224391244239102637973600,
  224670893084558754871500, 225300546604295593198800, 225340823026342850125100, 225800509605828783923300, 226020528777566946607400,
  226971042748800583747100, 227210821555728111155800, 227270768021709158198000, 227680422333436531913900, 227740677251010339921700,
  227780677251010339921700, 228210649435603719909000, 228250344338916026800100, 228710534857120432481000, 233950840815038822734100,
  234350781252822780127300, 234470542443695509952400, 234780331336917558114200, 234870840815038822734100, 235440776956219191783000,
  235530467639794697206100, 235620597236581609303900, 236100720861218096927100, 236140781252822780127300, 236180480443365888664250,
  236220770619257798524100, 236260770619257798524100, 236520480443365888664250, 236810619241578412025300, 237920766326753326820700,
  240330714407365983169900, 240800573797667141562950, 240860633092368687705800, 240880757871014524014350, 240890980333369676447800,
  240920952462029429545800, 241030761407728907743500, 241090626964713205624300, 241150573797667141562950, 241280761407728907743500,
  241330637976928495542600, 241490633648234488088600, 241590952462029429545800, 241620736721721114590900, 241800272661955495487040,
  242300485761794876753800, 242310476614921029183900, 242491030232486288346500, 242580724389399511391000, 243520400370006311845650,
  243730400370006311845650, 244260765074127344902700, 251301244239102637973600, 251420520389418548537100, 251430520389418548537100,
  251590613794222395775500, 252090521909534681742200, 252850783722084039164500, 256941024516644904351600, 257351134377873771162700,
  257740871669759914308400, 258120783722084039164500, 259030521509170179707400, 260110839060607857643000, 260200697433088524460500,
  260410409231555801518100, 260630739574529476044800, 260860863572853660941700, 260920806036439170585500, 261880826034088373853000,
  263540553363624706451600, 263760722745526877075050, 263990434740226707596100, 264130761808531047497400, 264210765074127344902700,
  264380650882045769065700, 264630767170640191407100, 264650464736196459393600, 264790629178825793345700, 265220714908620165524400,
  265250623380100028310750, 265500565793396374209300, 266091174924384581979100, 266350835641471382815300, 266660694932958303918800,
  266790595394626232781650, 266810524645379990416800, 266941013980593338569100, 267000897665512358001000, 267230806663400471945000,
  267290766326753326820700, 267420657027323690432000, 267510650882045769065700, 267810464736196459393600, 267970911018651620453200,
  267991004449575358136600, 268470835641471382815300, 268690687023699420197200, 270010880480486665335000, 270081174924384581979100,
  271370766326753326820700, 271601036294948469990000, 271710595394626232781650, 272840806663400471945000, 274250468384399775613950,
  274930551043105870078200, 275060619241578412025300, 275730489620877903788700, 276270820828452178247800, 277440909248693910513000,
  277541118962805788436800, 277950815193158523134500, 278590880480486665335000, 279540799973976988942000, 282860935134857302142000,
  283160952462029429545800, 284040935134857302142000, 287710935134857302142000, 288550853036802095159000, 288570366337217705694540,
  292470864690183720754200, 292550506057784782382300, 293231105609666525984600, 299221313553820693968200, 299230744180606813698200,
  299261244239102637973600, 300240983970134093535300, 300450686077618569774300, 300540894588346491325700, 300580587150806404015200,
  304050804178800613291900, 304060716683064695431600, 304150665090297130443000, 304180716172859507042100, 304240408033233191349000,
  304300665090297130443000, 304360408033233191349000, 304461013980593338569100, 304620713660164499299800, 306291203692591827157300,
  307211036294948469990000, 308710570601736415322000, 308790817971114933842000, 309081036294948469990000, 309170830722446963738100,
  309640700431171745654100, 311810432687014483296650, 311860655212898478091700, 312430755204189815798300, 312780432687014483296650,
  313480732140767511461500, 313831065063155715168200, 314560586313981436963500, 315080576028242892992700, 315580576028242892992700,
  315681203692591827157300, 315700705331929656323500, 316650644469592952111800, 316870596618819026908200, 316990970155100245453500,
  317260912820502170721100, 317510802959273303910000, 317570970155100245453500, 318060757871014524014350, 318110912820502170721100,
  318590389923773329396700, 318670383902013872244650, 318900660174936900633800, 320260480034662350647900, 320680569892094170545500,
  320941105609666525984600, 321140651546500040932600, 321730757101779961698800, 321850809211309002043500, 322250864690183720754200,
  323110785233447820169300, 323261042748800583747100, 324230480034662350647900, 324520569892094170545500, 324781105609666525984600,
  325000757101779961698800, 325060809211309002043500, 325330785233447820169300, 325350864690183720754200, 325541042748800583747100,
  325920714657679004981800, 326760477406359052286400, 327010743175573228348100, 328820422333436531913900, 329290258220249198876000,
  329740649566237311314600, 330320725500522053898140, 330330725500522053898140, 331080613794222395775500, 333680664937741799559200,
  334450907509519639326200, 334550890143170234242300, 335800798804373012622800, 337130652888802074146700, 338020652888802074146700,
  338651118962805788436800, 340281065063155715168200, 341041065063155715168200, 343990448468863071077100, 349550648525915835225900,
  352820579017336652281300, 362030835641471382815300, 362550753711624794130700, 366001042748800583747100, 366350686644192323342000,
  366500516929843038021450, 366550692493812991502900, 367180516929843038021450, 367241042748800583747100, 367420686644192323342000,
  367530692493812991502900, 369130963903064547320200, 369410637165329837724700, 369470243567021920195600, 370960411128647832669700,
  374060734557803604242800, 375261105609666525984600, 376561042748800583747100, 376640818677831656151300, 377440841703933564458700,
  377700784223338221518950, 378080896115093704404400, 378320752973614064368400, 380550734557803604242800, 381141105609666525984600,
  381420752973614064368400, 381801042748800583747100, 381890818677831656151300, 382060841703933564458700, 382250784223338221518950,
  382260896115093704404400, 383470918429448835825500, 383570861374962989064100, 384210918429448835825500, 384250861374962989064100,
  385980503780763327546200, 387541105609666525984600, 387740995748437659173600, 389130723017635888511100, 389150905800076303396300,
  389170589776001501623900, 389310598014190504294700, 389820651813522896520400, 390060383902013872244650, 390290723017635888511100,
  390310905800076303396300, 390330589776001501623900, 390390598014190504294700, 390630651813522896520400, 393811042748800583747100,
  395501042748800583747100, 406700366337217705694540, 408010809211309002043500, 408360809211309002043500]

def emitS37_0 : List Nat := [
  312090000000000000000000]

def emitS38_0 : List Nat := [
  201820151510264957049200, 203090581379140828521000, 203200219480057092836980, 204740617077590183173900, 205561033899031262029500,
  208441100396661621354400, 208540300641557796787050, 214130826671726041907100, 214780446494279672792300, 215080391913499403198100,
  215660590953498437530300, 216430661295271053942600, 216810558097642297530900, 217380519866432528545450, 218610581286333397265700,
  229050265027322735067370, 234080852370034598204600, 234270334947073183551860, 240490700576591454434600, 244440703682431156431850,
  245900606909308267793400, 247440529372357455439900, 251050179333184313317500, 259490816423859113613500, 260310721725491286257400,
  264120436438131115140000, 265760540575043970380600, 274920375712347671972640, 275990441290273328614500, 277410718503403385141050,
  289371389433837410971000, 289820634630940417469400, 354420379372275746265330, 355040431174502823147500, 355760549165856948223200,
  358130379372275746265330, 358320549165856948223200, 358410431174502823147500, 368250200226439823783140, 368890200226439823783140,
  370270292741676125508400]

def emitS39_0 : List Nat := [
  208570084993986985004230, 260310055994565763988180, 277410663068338564237200, 335860084993986985004230]

def emitS43_0 : List Nat := [
  343980037729423114146804, 345600115745278869104300]

def emitS44_0 : List Nat := [
  201700082036371232579340, 209080350279424967067800, 213200403718614838215200, 217760474583751547806300, 227990267588091816881860,
  228050546537145121120300, 228120294242742903003230, 234350567259954721951300, 234770597798119677069500, 261270813153071060425200,
  261320490651989716853600, 261490251364135729976400, 261520500950471172596950, 261721000333288750584300, 261880582894561761020750,
  262020226702579095755900, 262051000333288750584300, 262160661894262416007000, 262570650682532603936400, 262860491573655227346000,
  296160205406491189617000, 296940205406491189617000, 311790347537496988329360, 385390890472059883773400, 397590931018570694590000]

def emitS45_0 : List Nat := [
  200430130259026258256940, 219490853397466837824000, 220290853397466837824000, 247991248521838695966800, 251520185020464099447970,
  266791138660609829155800, 271711138660609829155800, 315610065677440348674790, 333240534081120663852900, 368300304822064436947930,
  368990304822064436947930]

def emitS46_0 : List Nat := [
  244710000000000000000000]

def emitS47_0 : List Nat := [
  368070000000000000000000, 369420000000000000000000]

def emitS48_0 : List Nat := [
  303400000000000000000000]

def emitS49_0 : List Nat := [
  201020000000000000000000]

def emitS50_0 : List Nat := [
  223200000000000000000000]

def emitS51_0 : List Nat := [
  305280000000000000000000, 338790000000000000000000]

def emitS52_0 : List Nat := [
  199990782045311494445200, 200020782045311494445200, 200180870373143979210400, 200200761938327478705100, 200300699060360211073300,
  200350701189571022594700, 200450990618794360007700, 200470975637566537141700, 200481134430737258455400, 200560745640267660529600,
  200640897784887320974800, 200800612303190150509800, 201040984259684081854600, 201050766076126444598000, 201110798363652082239200,
  201290926752894832420200, 201320688971270465384100, 201350665139912335264800, 201390897784887320974800, 201420714790561701153300,
  201460689965561530203900, 201831163910691280519800, 201840824844098319538500, 201960638012455165583900, 202080855327280455402100,
  202190578477206119017100, 202230895417912912384200, 202390792136237829509000, 202400841112977369065200, 202410766719905492082800,
  202500408414368520456100, 202511519445497429461200, 202560654168248863655100, 202600727219391594136500, 202720970965804080395700,
  202760845630247969865500, 202800802510495762401300, 202910978280892243957300, 203030540206659427720400, 203080528976814118300200,
  203160554624684310276450, 203290983786869962260000, 203510464708927000534200, 203551110011041207251200, 203580373014218924507700,
  203790680965097092412000, 203810716795803534920000, 203910730125610475000400, 204190851989358248018600, 204311043228103949685500,
  204400941990342875020300, 204450677333225162910900, 204620740458641523990700, 204630940755759292790500, 204980572993760842404700,
  205050837116885193892600, 205060878922651626377000, 205110717090258189026500, 205211111691753038889300, 205401262950561683307500,
  205420832960719632375100, 205581058928478830652200, 205700489410588512448700, 205720653229601262818900, 205810925956077867502400,
  205960730125610475000400, 205990785686723075601600, 206210938932000537812400, 206330762504318184390100, 206480864194708726002100,
  206520830384585414744500, 206590654168248863655100, 206601519445497429461200, 206630727219391594136500, 206700832960719632375100,
  206870529026766664421100, 207210900004958318994000, 207860864194708726002100, 208050839428490599241300, 208120798216050579427100,
  208130808457551122234000, 208170798216050579427100, 208280900619085121202200, 208370580974121537364900, 208510680169186125655100,
  208520753906432946846000, 208590755963429654906900, 208600678195585399304100, 208820689417478444194800, 208890612108045739158700,
  208960823410724519330400, 209000953846316347476000, 209140676500069718638100, 209150912141044019420700, 209230846942133212777000,
  209370799477662860343900, 209410846942133212777000, 209430779873336569256700, 209450843519970363092000, 209860441875397712525700,
  209910880926057529688800, 209990777988209294402300, 210100806595902861457500, 210150730387243963807500, 210241009458854647041400,
  210280836142324150841200, 210320957405410857746200, 210341009458854647041400, 210380822843078718849900, 210400348988488106957770,
  210460633765161756623500, 210470881263895688851300, 210490979177759242233300, 210500756593734771955600, 210510784073264389498100,
  210570974771760262830300, 210590920549355740474900, 210660885057454016828200, 210680865921370328095300, 210700979177759242233300,
  210721001830524172078400, 210761103557189093494100, 210781014459896704507500, 210841039043392956135600, 210850863201088060089300,
  210891210341252093629500, 210930863201088060089300, 210970802356649578210800, 210980874240601985738600, 211021001830524172078400,
  211060816891665965609100, 211190875670332455821100, 211211214993253657118900, 211230806595902861457500, 211280908077279446238200,
  211490735808521374948800, 211500648070864383769600, 211520646570510081608500, 211600623014302617009800, 211610822937462869320600,
  211620951770117202633000, 211630901443832064204000, 211710882113518471760000, 212020803671949004470500, 212050623014302617009800,
  212130762246652491717200, 212140882113518471760000, 212400735808521374948800, 212430927019917688008000, 212460880421430722926200,
  212480927019917688008000, 212530725600942312982400, 212700663056905488639300, 212950672204996566850900, 213070871594533208604400,
  213190656572040814546700, 213340642292969010814800, 213440528976814118300200, 213451172871907149488600, 213481024569508391644300,
  213510855196817292735600, 213550811695692072538000, 213600745683869143670700, 213630511198476623004400, 213680858780478809639700,
  213820869466793363875800, 213870706380700613402800, 214350404579029600853900, 214490920299042718663000, 214530624353320949735100,
  214570587642679690151200, 214620648763365090198200, 214630543610880742815450, 214640621478642005343000, 214650864910531396019200,
  214720906105693129796400, 214830522926103232250600, 214860965319142913618600, 214870413052339699237000, 214940856641359811508000,
  214970743954470227318200, 215000995801301146466300, 215070533241461167265700, 215101018381968019835600, 215120661372376207438700,
  215140836682573979176000, 215200775901695448006100, 215230746780130944696900, 215311025281255168530800, 215340849372386474680100,
  215350934225249452013700, 215391166809444967845000, 215470677929450844352650, 215480518202333476930500, 215490966900203516282800,
  215501023862791669335200, 215510835283949781702000, 215570867974228342208100, 215600769669327367204300, 215610722821519773514400,
  215630857571599077739300, 215640869918941835760300, 215740767313699409537200, 215760649310857125545000, 215780736801183883859900,
  215950928095196865634300, 216181136581357780551600, 216210890845687978574800, 216230990115014957012000, 216280805638194025026500,
  216291279655970149624100, 216341040696323151256700, 216500936845486691416200, 216710878922651626377000, 216760753057771559114100,
  216791005279141779195300, 216830908743208655235800, 216930836574290265292800, 216970748111708542274100, 217000848515063403631400,
  217090717123028957794250, 217130934801619923688800, 217410664035142885827800, 217560814780769644585600, 217571126262934157028700,
  217921189861810829028200, 217991255539764467935300, 218040875830460592518500, 218060742128129381207650, 218090712448682523477000,
  218221042377034982894700, 218270914001562802524200, 218281015750237188098400, 218390517025534659622100, 218401019724270053049700,
  218540934801619923688800, 218550835283949781702000, 218801059933512416002300, 218840999595794302878600, 218900829574043996462300,
  218920742888589319729600, 218980697971914091231000, 219120885586089609142800, 219160705384793143616200, 219430847062253347340300,
  219570934225249452013700, 219580928095196865634300, 219651085064955244092700, 219691120547092773033700, 220220743954470227318200,
  220390906540476423406700, 220401041533148118308300, 220601100480023226818600, 220621189861810829028200, 220631059933512416002300,
  220941032692052383903000, 220991041533148118308300, 221041090399553314622000, 221050991634031506409600, 221320847062253347340300,
  221510746780130944696900, 221581022464167471861200, 221990847182517943916300, 222040887729028754732900, 222380550626681904964500,
  222440933366875082874600, 222560858107075591505200, 222600753859095667855500, 222781100480023226818600, 222800889000617187263100,
  222850753859095667855500, 222911100480023226818600, 223491047595610299951800, 223520608947511797625600, 223531519445497429461200,
  223680900619085121202200, 223761070581860456247200, 223780957043746810727400, 224020810188125831993300, 224180924641998511396700,
  224271066185548114135700, 224380954548073613340600, 224430874873515490903300, 224460942301385116459600, 224750777687457188006800,
  225190813483734600322900, 225211011305060931014800, 225340800152075307881300, 225491023161034403470500, 225700920049354698804200,
  225810875032371759417200, 226040884531598291481400, 226150844335350535785200, 226220770616145913518400, 226350854288310070488400,
  226571380816061317472000, 226660874873515490903300, 226840900619085121202200, 226860622720579144233500, 226970981455762075415300,
  227021023161034403470500, 227180954548073613340600, 227390706380700613402800, 227440924641998511396700, 227660829070771671001300,
  227670829070771671001300, 227910762504318184390100, 228150742888589319729600, 228160742888589319729600, 228311270954832450661200,
  228330767151405622224100, 228400921810406499667900, 228410788190147619201500, 228420784844476438132000, 228460788190147619201500,
  228570732390712978690050, 228630715079162190066900, 228680738694493207841950, 228900784844476438132000, 229140479624069258224200,
  229950692444191202082600, 230470970965804080395700, 230940812798800415765400, 232330803438576669848500, 232440815129505830627300,
  232541093177509725329700, 233080970965804080395700, 233840724712994727814850, 233980612268725218236900, 234131032692052383903000,
  234160612268725218236900, 234320699224653785816500, 234330638533871616933900, 234360644155744951930700, 234500611035832889268000,
  234531248640477319240300, 234560936257249701109600, 234570874873515490903300, 234720889000617187263100, 234750782170860789028400,
  234810796461619614336150, 234870897386480419487300, 234920756642384736427700, 235290874873515490903300, 235310612108045739158700,
  235410936257249701109600, 235421248640477319240300, 235470752076684502688200, 235480842941599751407000, 235560726857465755705200,
  235630752076684502688200, 235660842941599751407000, 235810906540476423406700, 236130663056905488639300, 236151033464256993294000,
  236210660011557370172050, 236240931952424344258100, 236460549953028975766600, 236481013185994126764600, 236600549953028975766600,
  236630868867091416638400, 237000990115014957012000, 238490932515806116083800, 238601120547092773033700, 238840884182557797504600,
  240341057933445745335300, 240671519445497429461200, 240760956324319247324600, 241020543126450729720700, 241100728129978836654400,
  241180543126450729720700, 241710728129978836654400, 241780594913363342318400, 241790663842575909317700, 241850594913363342318400,
  242120547555153620669800, 242230765171142892606150, 242900765171142892606150, 243140641059907765066900, 243200528354503594284600,
  243240685998341969366900, 243390890473940338561600, 243410683719582079470000, 243670847062253347340300, 243770709794205679302000,
  243920709794205679302000, 243980847062253347340300, 244020685974335247369500, 244050801058425923215900, 244490754905727486597800,
  244530666257023413538450, 245010754905727486597800, 245180995270795923496900, 245240890473940338561600, 245250826103194856389700,
  245360720218633102386700, 245370654922043299749000, 245510800604223779765800, 245650749642580402180700, 245760812628297390657100]

def emitS52_1 : List Nat := [
  245801132325396338672000, 245960837991207703465300, 245970641366750595568400, 246050780180745357298900, 246130642821659404151200,
  246160852877125651220400, 246180761733304341793400, 246510947086987234223000, 246771032692052383903000, 246800739511157607869100,
  247000875032371759417200, 247350858107075591505200, 247361050310709206546800, 247390800076915589950000, 247480804453813816250300,
  247580843404028321118400, 247780698950980927540500, 247850994743090213412600, 248061108358111012130100, 248070915658405437247500,
  248150871134762283741400, 248170875032371759417200, 248190474513186080304400, 248250838431252417947600, 248330861381583700966200,
  248580922064536242535100, 248590614828194853234200, 248670802818900016097500, 248950689616433993533000, 249080867383384673591500,
  249310871134762283741400, 249381132325396338672000, 249620800604223779765800, 249710885762924314817100, 250140995270795923496900,
  250260755673854162981300, 250330547555153620669800, 250771055006407515323900, 250790812628297390657100, 250800804453813816250300,
  250840915658405437247500, 250880947086987234223000, 251040499870833981359650, 251060884182557797504600, 251111116910328355946400,
  251251255539764467935300, 251271116910328355946400, 251300854676660073128300, 251390877609003835840000, 251400723867919276042600,
  251491340269550506655700, 251591070581860456247200, 251660769006341513337300, 251690746559915044206900, 251700892346654243631200,
  251710538714798023245300, 251720778350309871097600, 251760758112999475397200, 251790868867091416638400, 251870838984045423198800,
  251910813483734600322900, 251950805162757313299200, 251961299723039695839300, 251970831407089210860700, 251980959974359469277300,
  251990761171648538020100, 252000909863041186238800, 252030963377334327908500, 252060782674640192024100, 252140579946243018619300,
  252200809856175319708000, 252350722129954085047900, 252370639403964114868700, 252380834221240524273400, 252390735848039257304600,
  252400755529380263544000, 252430777148372324519200, 252471141026534037635000, 252480966900203516282800, 252490964149538937299500,
  252500749144729181537600, 252520807643876982927900, 252590828570019497939100, 252600741331646444959600, 252650717221405748807500,
  252690801210286240935000, 252730817426426598268700, 252751111691753038889300, 252760829978493486113000, 252770755770286185883200,
  252790953846316347476000, 252820938331398131791200, 252840967700207782990400, 252850816891665965609100, 252860856906260628665500,
  252880928365833025408400, 252890614416599046665600, 252910777148372324519200, 252920917343162494508500, 252930726785237511322800,
  252940917100738133358000, 252960851737151304747700, 252990893105671170298800, 253000793463536393142550, 253020760562509598679900,
  253070933938305209218500, 253080704485323855845700, 253110718475961655169100, 253140886651819056541700, 253150893678738641197300,
  253170791238131620114800, 253180860415392609792600, 253190886473406877191600, 253200772937223789506400, 253210910995556121944000,
  253240964149538937299500, 253290753198715909437500, 253311166809444967845000, 253320880926057529688800, 253400868122486338230500,
  253410821717363266386500, 253420867678370138233700, 253430588101664431486200, 253450628508456909714600, 253460697809664190845600,
  253510591589536334128600, 253581011305060931014800, 253610779689343877056000, 253660774553887175041100, 253750941371145850228300,
  253760902484424180315700, 253770816536741014495000, 253790862217243160060500, 253800786733168203531900, 253810788056814266115000,
  253840833904617568468400, 253860885057454016828200, 253870865054312872982000, 253910819594533204401000, 254020876634970161001600,
  254050889366917963136800, 254060941371145850228300, 254100897784887320974800, 254130896004424857624000, 254140880926057529688800,
  254170794879990670007700, 254190954900807665137400, 254220870525004296929500, 254230829372431024944000, 254240886473406877191600,
  254290886651819056541700, 254380855327280455402100, 254410846343687381253000, 254420685256800477842450, 254430939536231983408700,
  254470792066865644971800, 254620924381242170688500, 254661148088290759030400, 254670912371724629212200, 254720921051869360742000,
  254741002966900037109900, 254750805162757313299200, 254760964149538937299500, 254810672246837571645400, 254840871902225759052200,
  254870893678738641197300, 254880928909312624004200, 254900737965154480525200, 254940971381605095262100, 254960823315892838444400,
  254970862217243160060500, 254990697809664190845600, 255040869016680075796600, 255050779322370988159700, 255060778774424411697200,
  255070944825178375446000, 255090661184864433014200, 255110818324098694424500, 255120680418647645204200, 255130850734636642809700,
  255161091778885527855700, 255171324854482523929800, 255200974341652072891200, 255241193635843627313000, 255270880086422034398000,
  255281007049099489135300, 255301001267142400252700, 255360893678738641197300, 255450863059944776248500, 255491028918019585618300,
  255501214993253657118900, 255510995270795923496900, 255520642076082791016840, 255540763177372757272700, 255621299723039695839300,
  255630685256800477842450, 255690807724947113026700, 255710952802828618218000, 255770939839722352924000, 255780866212068207226300,
  255810851737151304747700, 255820788056814266115000, 255970918073981825181000, 256000941680265107195600, 256010883661270778651300,
  256020867383384673591500, 256050865776337670330800, 256111409584268562650200, 256190899394580025192200, 256201060948749562404000,
  256220760968189668241400, 256230939536231983408700, 256271299723039695839300, 256280873142551737394300, 256300709642021811854100,
  256320986657880550503000, 256331124321125571318400, 256421134430737258455400, 256440764695329147964500, 256450772765549927601000,
  256540749144729181537600, 256580865631515052694100, 256611085064955244092700, 256651077561436649801300, 256700732352537753946900,
  256710760968189668241400, 256740933652181981115300, 256811193635843627313000, 256840827279679014348300, 256880857838978916179500,
  256941091778885527855700, 256950867383384673591500, 257051219872270074062100, 257150966900203516282800, 257181141026534037635000,
  257200728386436203813400, 257210871902225759052200, 257220978280892243957300, 257231001267142400252700, 257300951428236527754500,
  257331040696323151256700, 257350959603301529623700, 257360855327280455402100, 257440845630247969865500, 257450845630247969865500,
  257460802818900016097500, 257470902484424180315700, 257490890103569544813100, 257580771572014872673800, 257631007049099489135300,
  257640801514700479057800, 257650772937223789506400, 257690962230094211684800, 257720940144136591046800, 257730912141044019420700,
  257740888090692801751700, 257780746559915044206900, 257810940144136591046800, 257881038227061892219500, 257910846343687381253000,
  257921074010767804110400, 257930791238131620114800, 257941008850950039403200, 257990910995556121944000, 258030816536741014495000,
  258050741081437807335900, 258061017057445344833500, 258100873142551737394300, 258120816891665965609100, 258240786733168203531900,
  258281155686881456822600, 258300776850131721707100, 258360718475961655169100, 258400886473406877191600, 258410883661270778651300,
  258420880086422034398000, 258500732352537753946900, 258540909863041186238800, 258560874240601985738600, 258620940144136591046800,
  258651214993253657118900, 258710886651819056541700, 258740921556920939349000, 258760860415392609792600, 258810941680265107195600,
  258840865631515052694100, 258900921556920939349000, 258920933652181981115300, 258930954548073613340600, 258980865776337670330800,
  259000918073981825181000, 259021230408321639844800, 259100611240262261996000, 259130624729920316982300, 259150727947196844621750,
  259180611913281399651800, 259370711514678224265000, 259430757669539768610700, 259440864910531396019200, 259450662088144944226700,
  259500956324319247324600, 259540672037807395200300, 259550704658784437066550, 259640855066524114694000, 259700792553484610089050,
  259720893105671170298800, 259750929182164089324700, 259871002966900037109900, 260070736085475063350800, 260091120547092773033700,
  260120791032016809940700, 260150932798691736131500, 260250792692954646644000, 260280792692954646644000, 260290685734584473213700,
  260390685734584473213700, 260450845867496005228500, 260800521734528188787000, 261140940449480339735900, 261270902275437688369700,
  261440922064536242535100, 261510958498317910965300, 261590215524714442661700, 261740722440566931847700, 261790865631515052694100,
  261851108358111012130100, 261871108358111012130100, 261940851360029550439600, 261970884356925757987300, 262280907856284881157700,
  262380966502588678318900, 262480884356925757987300, 262630773973502493061100, 263480851360029550439600, 263671380816061317472000,
  263710408414368520456100, 263770270899077791164200, 263810737642703576388300, 263950632421340699534100, 264150780427354606818200,
  264291078773572703035900, 264320611753171575878100, 264340798216050579427100, 264630893487351022969000, 264641044086478318824800,
  264690373014218924507700, 264851069464530396434700, 264940736721407254180100, 265170945466206211537900, 265430910314509221691500,
  265790854159194494126500, 265800915897354176985500, 265970752917025582326200, 266310799477662860343900, 266410703136859871139650,
  266571186225046411940900, 266850875191480782641300, 266921450130779373466600, 266940983786869962260000, 267750951428236527754500,
  268030931392198789391100, 268160888635653278508100, 268641153089332816496600, 268930894062616271914000, 269641074010767804110400,
  270481011928115906078500, 270911044086478318824800, 271381134430737258455400, 271610799477662860343900, 271780756205384769315900,
  271930703136859871139650, 272430756205384769315900, 272980888635653278508100, 274240825326491922623800, 274630805717653703422700,
  274900758014282784261200, 274980834010047203959100, 275110869466793363875800, 275120685974335247369500, 275150544155778039098500,
  275780611753171575878100, 275840831304367065207700, 275850831304367065207700, 276021340269550506655700, 276091002966900037109900,
  277091340269550506655700, 277140712323643432474900, 277181225001599512817100, 277190672204996566850900, 277540893487351022969000,
  277621047595610299951800, 277700912141044019420700, 277771005279141779195300, 277840793393237620475900, 277850793393237620475900,
  277911021084835258627500, 278121061974399579122900, 278350679717207955093200, 278380861798540524638800, 278451230408321639844800]

def emitS52_2 : List Nat := [
  278670818324098694424500, 278730816271371553148300, 278771358501706186051200, 278800776612178010380650, 278931311501343261477500,
  278990921304076304013200, 279000871134762283741400, 279111311501343261477500, 279220906322848481147100, 279270746736048951477000,
  279630840323351156842700, 279660608769891857500000, 279690619805067288172600, 279741270954832450661200, 279750909189637968104400,
  279790795739594816987500, 279981075180371780429500, 280140778108763859937200, 280240928909312624004200, 280340844335350535785200,
  280400835712215960902100, 280440819048083757193300, 280610992145541573086500, 280700791789857157590200, 280720601839553629530400,
  280781063010678282677500, 280920799477662860343900, 281070936257249701109600, 281080939839722352924000, 281200854417592570719000,
  281320899597625780230500, 281510781919919628485800, 281530977835457209019200, 281550785816931427331400, 281731037417340868957500,
  281830936845486691416200, 281870779873336569256700, 281930831099238788152000, 282010717319879415061500, 282040795739594816987500,
  282121242186625205483000, 282160720049742672104600, 282340843519970363092000, 282630819048083757193300, 282701311501343261477500,
  282860816006704437911000, 282870900619085121202200, 282930948072216878524400, 283160842366555038563200, 283220980995991150552300,
  283310717319879415061500, 283420895417912912384200, 283570735650605826932850, 283630930557701596173100, 283690824268280989570100,
  283751358501706186051200, 283780784201387405102950, 283880943871276070770000, 284020936845486691416200, 284040846942133212777000,
  284140784201387405102950, 284180931671919251497400, 284221047595610299951800, 284251248640477319240300, 284310890288583473629200,
  284360808049886472857700, 284421061974399579122900, 284521450130779373466600, 284590916858900046929800, 284601037417340868957500,
  284651052162613983270700, 284660601839553629530400, 284781078773572703035900, 284791270954832450661200, 284970871134762283741400,
  285070777988209294402300, 285080777988209294402300, 285160791789857157590200, 285301299723039695839300, 285481007646116187785700,
  285500909189637968104400, 285510992145541573086500, 286080903324765259953600, 286290900619085121202200, 286660948072216878524400,
  286700943871276070770000, 286810921304076304013200, 287480836899493803930600, 287530906322848481147100, 287710816006704437911000,
  287810735650605826932850, 288180765277187441250100, 288220967700207782990400, 288291069464530396434700, 288461089038988109044200,
  288560836899493803930600, 288600871287784501818000, 288641279655970149624100, 288660851485578845022900, 288880982847895927276100,
  288891010070477348785000, 289000900824635039411900, 289020850485570511564500, 289030733697418735208300, 289051115140370646006200,
  289070889000617187263100, 289211008850950039403200, 289370941990342875020300, 289381019724270053049700, 289441059933512416002300,
  289501087696686075830100, 289531011928115906078500, 289610521734528188787000, 289751124321125571318400, 289971136581357780551600,
  290010871287784501818000, 290060892346654243631200, 290220936257249701109600, 290310717057498155973400, 290321067266639724557100,
  290330850485570511564500, 290380801134327255133100, 290421055006407515323900, 290481214993253657118900, 290501189861810829028200,
  290601043228103949685500, 290710922830823517092000, 290760993176478538972600, 290791069464530396434700, 290801161093603583850300,
  290870828370418633267600, 290961097494726911850500, 291000850610026034785000, 291290967700207782990400, 291341081242833962073000,
  291380733697418735208300, 291450889000617187263100, 291481087696686075830100, 291511450130779373466600, 291721115140370646006200,
  291900886117534615492100, 292110851485578845022900, 292280736960928326775560, 292290766076126444598000, 292330614828194853234200,
  293010806917188278390200, 293090806917188278390200, 293131248640477319240300, 293590761784520732157400, 294680789668669176323200,
  294831061974399579122900, 294860736244079378914300, 295540644885212189166500, 295630736244079378914300, 295750634179004659074500,
  296090764221768673381100, 296150734085016119677600, 297020854159194494126500, 297301005865653724435000, 298720734085016119677600,
  299261219872270074062100, 299830569129574576149600, 299860665139912335264800, 299930872056427794233700, 299970966502588678318900,
  300021102006770439897600, 300030869466793363875800, 300110682785214151087600, 300410686190603504197500, 300590682785214151087600,
  300900906105693129796400, 301270852877125651220400, 301400820419847380073200, 302190852877125651220400, 302391051232374717039200,
  302511002397097925646100, 302641022464167471861200, 303211002397097925646100, 303310781794684796839250, 303320587642679690151200,
  303850910541009884776600, 303881279655970149624100, 303940910541009884776600, 304220723413134514577200, 304270746603919445357000,
  304330663056905488639300, 304420880086422034398000, 304470781108682730222900, 304600874082997540192000, 304750438470682392168600,
  304771340269550506655700, 305040863625717148234400, 305110932798691736131500, 305290774962170040241900, 305311103557189093494100,
  305560774962170040241900, 305610679514482353509100, 305721055972598606497600, 305851087696686075830100, 305960964927752981505000,
  305970794452943757662400, 305990932798691736131500, 306060813569682177594800, 306100840211054682380300, 306220840211054682380300,
  306230961095866551291200, 306290918564178885201700, 306310745640267660529600, 306340807078218909000500, 306930649861363145072900,
  307020999044828721781600, 307210891969295305267300, 307320915420026301719900, 307330803671949004470500, 307400853132227830381000,
  307441193635843627313000, 307551138779248452429200, 307720649861363145072900, 307760788390481576018900, 307791060948749562404000,
  307961008246718593807000, 308131380816061317472000, 308391270954832450661200, 308610971799142236310000, 308620878922651626377000,
  308960812033815809725000, 308971450130779373466600, 309080891969295305267300, 309100967700207782990400, 309171262950561683307500,
  309330882970421744270200, 309520813140681090643900, 310010971799142236310000, 310251060948749562404000, 310690887548686054817700,
  310850815918637501351500, 311050803516306949704700, 311630644805664018557000, 311990766236683075288900, 312071279655970149624100,
  312150769337285003474050, 312160516932517577638000, 312270753811780786442900, 312810516932517577638000, 312830801667255809941500,
  313090769337285003474050, 313370801667255809941500, 313540986173618102924400, 313590631637571816817800, 313841061974399579122900,
  313880939536231983408700, 313891029661517434370100, 314001098976235490364700, 314011029661517434370100, 314280939536231983408700,
  314350660419721202136940, 314460882798452656317400, 314490580421263704324200, 314710700659953059898800, 315050542250081172033400,
  315260879253777756742700, 315460964149538937299500, 315480914944966025860000, 315690797701154259807900, 315720780242340678002000,
  315790942926387150976800, 316090875990845550715800, 316140837771909369964400, 316270964149538937299500, 316290913767096106598800,
  316390666909522021198150, 316490625828832474541800, 316890797701154259807900, 317210942926387150976800, 318050837771909369964400,
  318200875990845550715800, 318400914944966025860000, 318601071711815981640600, 318811279655970149624100, 318960844335350535785200,
  319001086372163400828000, 319460930281076246884100, 319670952457405131409200, 319681087696686075830100, 319881071711815981640600,
  319901086372163400828000, 319950612085112589190050, 320130798437534612382400, 320211409584268562650200, 320330948072216878524400,
  320470881433243739484800, 320700981917656661044600, 320781270954832450661200, 320800750051764878534000, 320940926752894832420200,
  320970925691876921218600, 321101017717513747968800, 321130783244442303487900, 321290874240601985738600, 321761008850950039403200,
  321800959974359469277300, 321891006455625937153900, 321961015750237188098400, 322320740086817092302900, 322330802587507703057700,
  322360903535958580267900, 322440831509916983417300, 322671014459896704507500, 322990840098884171460200, 323020829978493486113000,
  323050795452238297414300, 323230931671919251497400, 323400865776337670330800, 323461058928478830652200, 323500781732126146065800,
  323530840211054682380300, 323620887368668004403000, 323681450130779373466600, 323710923087563067616700, 323960864337463925120800,
  323990847544181990935300, 324121289186988130056700, 324321409584268562650200, 324350798437534612382400, 324370795452238297414300,
  324420948072216878524400, 324510831509916983417300, 324550865776337670330800, 324580981917656661044600, 324650874240601985738600,
  324670750051764878534000, 324690781732126146065800, 324711270954832450661200, 324720887368668004403000, 324760925691876921218600,
  324780926752894832420200, 324790783244442303487900, 324830840211054682380300, 324930864337463925120800, 324961006455625937153900,
  324971031165305170824100, 324981015750237188098400, 325030931671919251497400, 325101008850950039403200, 325120959974359469277300,
  325170903535958580267900, 325181289186988130056700, 325301014459896704507500, 325310802587507703057700, 325340740086817092302900,
  325410840098884171460200, 325440847544181990935300, 325530829978493486113000, 325571058928478830652200, 325621450130779373466600,
  325640923087563067616700, 325700773569228191365300, 326020843985087480665000, 326100678284454545344000, 326170868270964464988500,
  326220664615078785332200, 326240843985087480665000, 326251230408321639844800, 326290695538964252534400, 326310678284454545344000,
  326700908298763479193400, 327220897784887320974800, 327280922830823517092000, 327610922830823517092000, 327630718376343516431100,
  327681014459896704507500, 327710759605564497064800, 327810828071762363492800, 327840819503250678665100, 327890888817968734659700,
  327910919800288567559000, 327931225001599512817100, 328001450130779373466600, 328021380816061317472000, 328101124321125571318400,
  328271032692052383903000, 328420909189637968104400, 328431004116337979683300, 328560925428372157418000, 328580776197116637749300,
  328620720965158456020600, 328930518202333476930500, 328941004116337979683300, 329331071711815981640600, 329371519445497429461200,
  329430783753673193859200, 329590859322485556573700, 329720646911004938340200, 329880762246652491717200, 330141279655970149624100,
  330210427492185674733700, 330670737281184805463050, 330730737281184805463050, 330941118712178906214100, 331001013820916894630400]

def emitS52_3 : List Nat := [
  331310859322485556573700, 331470909638069212837200, 331500804062117271576900, 331521116910328355946400, 331670947742727288839000,
  331841279655970149624100, 331930909638069212837200, 332530855196817292735600, 332560761938327478705100, 332680757571259662419800,
  332800997951921668562600, 332821096034846969735300, 332880753906432946846000, 332890699060360211073300, 332930835927038814731000,
  333000941990342875020300, 333100797627813589120500, 334570626052708251197900, 335091519445497429461200, 335150973913385893691000,
  336180875990845550715800, 336330880086422034398000, 337190644885212189166500, 338041043228103949685500, 338061158353706165038800,
  338291450130779373466600, 338530674233377962209000, 338650856641359811508000, 338790690065536544779300, 339450771064828662877700,
  339760891969295305267300, 339880945145178648513000, 339950723413134514577200, 340280978280892243957300, 340911075180371780429500,
  341091010685863906222800, 341811124321125571318400, 342241033464256993294000, 342550844218459815287000, 343600957043746810727400,
  344070798363652082239200, 344961040696323151256700, 345671163910691280519800, 346151077561436649801300, 347010847786020077363400,
  347311083774614760502000, 348920549002830255673700, 348990780427354606818200, 349000868717726190960000, 349070811695692072538000,
  349090676500069718638100, 349170734630188809508700, 349240962230094211684800, 349660905241756870725600, 349781134430737258455400,
  349890751013090661345700, 350090891218822739860500, 350100827378347004593000, 350130678395652154933800, 350360734630188809508700,
  350370678395652154933800, 350571100480023226818600, 350650857304932253047800, 350901046706715558227000, 351140898787904756968500,
  351830962230094211684800, 351860751013090661345700, 351951201640114394666600, 352010385551391693143670, 352110480103862370547850,
  352190994218154624798200, 352420689965561530203900, 352550970965804080395700, 352580754001174782450000, 352610965319142913618600,
  352650480103862370547850, 352690994218154624798200, 352720965319142913618600, 352730754001174782450000, 352810970965804080395700,
  352941169794741282813200, 352990707535413665712550, 353020826591715612994600, 353161169794741282813200, 353200826591715612994600,
  353300860828331943993800, 353360709035591815103050, 353420779261339555078300, 353470889366917963136800, 353520670586703988870900,
  353551028918019585618300, 353700869166492837898900, 353730631930765744126200, 353771182715914430813900, 354080964149538937299500,
  354130893678738641197300, 354271124321125571318400, 354300756885990216215800, 354621025998104116392000, 354630921810406499667900,
  354661118712178906214100, 354690789804170552069200, 354731011305060931014800, 354860866503613603238600, 354920831715890279718400,
  354980329513849395815540, 355190678306684177535150, 355270698433056913034540, 355310574022768986632000, 355381001830524172078400,
  355420661091240233684100, 355840794240102244179800, 355860836250140872875700, 355881118712178906214100, 356110625382578944897400,
  356130791789857157590200, 356720808375885131578500, 356760796606652272100800, 356950809031088130708500, 356960743270998963570000,
  357030807643876982927900, 357120736960928326775560, 357220621478642005343000, 357310481423647176332200, 357450709035591815103050,
  357460860828331943993800, 357480789804170552069200, 357520779261339555078300, 357530481423647176332200, 357570889366917963136800,
  357580743270998963570000, 357600670586703988870900, 357620625382578944897400, 357681182715914430813900, 357691028918019585618300,
  357700661091240233684100, 357740631930765744126200, 357750869166492837898900, 357800893678738641197300, 357820808375885131578500,
  357840964149538937299500, 357930809031088130708500, 357951025998104116392000, 357970756885990216215800, 358111124321125571318400,
  358210866503613603238600, 358230831715890279718400, 358271011305060931014800, 358280329513849395815540, 358310574022768986632000,
  358350736960928326775560, 358430678306684177535150, 358451001830524172078400, 358480698433056913034540, 358510794240102244179800,
  358590836250140872875700, 358740791789857157590200, 358890796606652272100800, 359051030410584607285800, 359180882798452656317400,
  359871061974399579122900, 360000729753031802574700, 360090929182164089324700, 360100885409567056686000, 360150950747961795479300,
  360220920049354698804200, 360230612303190150509800, 360240784201387405102950, 360270768786319422377100, 360280768020032147820150,
  360351083774614760502000, 360501083774614760502000, 360600774962170040241900, 360620795094199962913100, 360640874082997540192000,
  360670642292969010814800, 360700824364020585202800, 360770851989358248018600, 360840857705199632013500, 360900733118825028503900,
  360930854936400478896800, 361040923344963467133800, 361060882626778794412000, 361110781982595907566700, 361180924121164000682800,
  361270729753031802574700, 361330757669539768610700, 361370929182164089324700, 361380885409567056686000, 361400920049354698804200,
  361420950747961795479300, 361480768020032147820150, 361510784201387405102950, 361530768786319422377100, 361611083774614760502000,
  361701083774614760502000, 361710824364020585202800, 361720851989358248018600, 361740924121164000682800, 361750795094199962913100,
  361760774962170040241900, 361800874082997540192000, 361820857705199632013500, 361860733118825028503900, 361870854936400478896800,
  361900882626778794412000, 361920923344963467133800, 361940781982595907566700, 362080473745594154255800, 362120720489452496074600,
  362140719578361327883500, 362150473338226558948600, 362250819868881798976200, 362281324854482523929800, 362290671330355422564000,
  362350799701962019802100, 362450719578361327883500, 362640799701962019802100, 362760978728320283449300, 362871163910691280519800,
  363000641505137640026300, 363050604982714568381000, 363190710007652932165200, 363280775783770906038600, 363300753339859193278300,
  363390656876618672507550, 363431023862791669335200, 363460979177759242233300, 363570893870493254124600, 363670832129114008209400,
  363860825229826859514200, 363930825133255147518300, 363981093177509725329700, 364010951428236527754500, 364091013185994126764600,
  364271055972598606497600, 364331145678535601124400, 364540924903436568803600, 364600929730110665787100, 364610976510934534017100,
  364660835390844500592400, 364741023862791669335200, 364790903747598870905700, 364811034242471037499600, 365131145678535601124400,
  365170903747598870905700, 365300784201387405102950, 365380751427933385802200, 365551001830524172078400, 366170762762649508628150,
  366640794381946239593200, 366760735966686690641800, 366810634608927935206500, 367030879419752898579000, 367111001830524172078400,
  367160634608927935206500, 367200879419752898579000, 367330762762649508628150, 367550794381946239593200, 367580735966686690641800,
  367660812458084583604000, 367670831201750329676500, 367710927556112002146600, 367740648070864383769600, 367810812458084583604000,
  367980529653288023136600, 368010737562253049120700, 368040992145541573086500, 368080876312389236113300, 368140725708027813131600,
  368160722475139101595700, 368200840660999198503200, 368270555538880063571300, 368550822184872299285800, 368560964927752981505000,
  368610732926702010714500, 368640676434588978548850, 368650624457068851661900, 368670730424676118465100, 368730681170787943129800,
  368790779811968049380400, 368800869918941835760300, 368820789263263215668000, 368870952802828618218000, 368900651820885302377500,
  368910938932000537812400, 368960739470165600736400, 368980808866884481334100, 369100921810406499667900, 369140555538880063571300,
  369240771177314613996100, 369300964927752981505000, 369350761835763367150100, 369380720049742672104600, 369390722475139101595700,
  369480529653288023136600, 369551074010767804110400, 369580789263263215668000, 369730742086050693441800, 369740863909808248394700,
  369830737562253049120700, 369840681170787943129800, 369910818504604158597500, 369920897784887320974800, 369930876312389236113300,
  370380881433243739484800, 370510852242202883354400, 371090881433243739484800, 371680852242202883354400, 371970727291934216106300,
  372331035026788783602000, 372471038227061892219500, 372511013820916894630400, 372570806036125310174600, 372660776612178010380650,
  372910871594533208604400, 372921035026788783602000, 373121038227061892219500, 373190779322370988159700, 373360865631515052694100,
  373471004696049748115900, 374631015750237188098400, 374761130263467618398500, 374961025998104116392000, 375320868717726190960000,
  375481122416306074249100, 375590851109402852833700, 375611166809444967845000, 375641197557914942641000, 376040968506663766663500,
  376100772252289604949000, 376240980082742794225000, 376281450130779373466600, 376360801058425923215900, 376401124321125571318400,
  376480897585485460288300, 376590956324319247324600, 376790774321328930693600, 376941075180371780429500, 377091065116019202460900,
  377200999595794302878600, 377820793463536393142550, 378550891969295305267300, 378641075180371780429500, 379411155686881456822600,
  379560852495688443673300, 380020913533177871281600, 380071153089332816496600, 380130782800982596701300, 380150880926057529688800,
  380250865631515052694100, 380351004696049748115900, 380501450130779373466600, 380571130263467618398500, 380671015750237188098400,
  380750782800982596701300, 380811155686881456822600, 380961122416306074249100, 381130999595794302878600, 381281025998104116392000,
  381300891969295305267300, 381360852495688443673300, 381380772252289604949000, 381440851109402852833700, 381450793463536393142550,
  381480968506663766663500, 381521166809444967845000, 381531197557914942641000, 381690774321328930693600, 381710956324319247324600,
  381810897585485460288300, 381851124321125571318400, 381861214993253657118900, 381910980082742794225000, 382081065116019202460900,
  382181153089332816496600, 382620913533177871281600, 382741179325759263245700, 382750778653065173501350, 382810775783770906038600,
  382830528354503594284600, 382900828270767404293700, 382961450130779373466600, 383290986173618102924400, 383580770280950068947940,
  383640680169186125655100, 383700831201750329676500, 383771179325759263245700, 383780778653065173501350, 383810775783770906038600,
  383820517025534659622100, 383830770280950068947940, 383860828270767404293700, 383910843404028321118400, 383921450130779373466600,
  383930719948545159673400, 383950720965158456020600, 384090986173618102924400, 384500761426555635007100, 384590877935801512301800]

def emitS52_4 : List Nat := [
  384680793322988232269100, 384770656822802185425200, 384800712824740628834900, 385060763333338476437450, 385190811864611031622600,
  385430646231170659269250, 385440839763125601975700, 385480748469810984044800, 385680646231170659269250, 385770839763125601975700,
  385990900004958318994000, 386130883315249672161700, 386200798216050579427100, 386260644805664018557000, 386560645140192406993700,
  386630804140333935713200, 386651080000581962217300, 387060782296567908033500, 387450805162757313299200, 387480805162757313299200,
  387520658031657682189600, 388041118712178906214100, 388191029661517434370100, 388291031925765109346000, 389110717123028957794250,
  389140701750110606883100, 389180829877227654674400, 389240931392198789391100, 389311248640477319240300, 389360658013507214765200,
  389881324854482523929800, 390000689616433993533000, 390030946760722670741500, 390150787194454029721800, 390190872520465749883900,
  390230722440566931847700, 390300701750110606883100, 390340829877227654674400, 390380787194454029721800, 390391248640477319240300,
  390420931392198789391100, 390460658013507214765200, 390641324854482523929800, 390720946760722670741500, 390760872520465749883900,
  391080857438176776425600, 391280857438176776425600, 391310686552093233908240, 391340686552093233908240, 391350699169859263897600,
  391540770392557223390000, 391650932798691736131500, 391660868568583732293000, 391780755963429654906900, 391870827378347004593000,
  392191089038988109044200, 392210829574043996462300, 392301205896075836546200, 392500860828331943993800, 392711089038988109044200,
  392780770392557223390000, 392800868568583732293000, 392810932798691736131500, 392860860828331943993800, 392950827378347004593000,
  393111205896075836546200, 393450901030608335713000, 393481017717513747968800, 393610967299405643236600, 393760712573878157983000,
  393810787923658454163800, 393871409584268562650200, 393890951770117202633000, 394380714982869452727500, 394490864337463925120800,
  394720804062117271576900, 394801201640114394666600, 394901409584268562650200, 395110931392198789391100, 395140698950980927540500,
  395340901030608335713000, 395351017717513747968800, 395390967299405643236600, 395421409584268562650200, 395470712573878157983000,
  395480951770117202633000, 395500787923658454163800, 395540695538964252534400, 395640931392198789391100, 395690714982869452727500,
  395741409584268562650200, 395750864337463925120800, 395831201640114394666600, 397170736085475063350800, 397190719948545159673400,
  401800891969295305267300, 404830891969295305267300, 405651024569508391644300, 405721270954832450661200, 406351105132024790308000,
  406640941371145850228300, 406921080000581962217300, 407230768896269955718800, 407781340269550506655700, 407841340269550506655700,
  407961030410584607285800, 408391030410584607285800]

def emitS54_0 : List Nat := [
  199690828972153736344000, 200070567781519681413200, 200290989915944979754000, 200471197860099147737500, 200640898286871792338500,
  200830826502892477306800, 201040619170361011066800, 201290491213402134041700, 201390848209343001089500, 201711018684152224932000,
  202670903416201231093500, 202840481388061270551850, 202950903416201231093500, 203040546685566183264800, 203140642952490658215600,
  203600808678069336675000, 203650750126417699916900, 203900691600595845040900, 203980753594973498705900, 204050502300838308107900,
  204780726907079016504200, 205130680811699643922450, 205650697465468553191700, 205970691600595845040900, 206070715831942587233900,
  206480989915944979754000, 207670715831942587233900, 207860989915944979754000, 208010550935067468160300, 208060730577215701547000,
  208550352990079650643860, 209150978137641414115700, 209180602795843888964900, 209390793554972364282600, 209400978137641414115700,
  209570602017629844759400, 209840703695856886807200, 209870462232111492662800, 210000731516189736530900, 210020773010574942801650,
  210190418914642539070300, 211090418914642539070300, 211531087998870280926600, 211691059230663035748600, 211930760915313901035400,
  212080628824153715331600, 212091087998870280926600, 212150419997084415156600, 212371059230663035748600, 212770793554972364282600,
  212811128545381091743100, 212940762189216478778400, 212970762189216478778400, 213051018684152224932000, 213110732464064131985300,
  213270541757032558080300, 213300686661320312083200, 213320541757032558080300, 213380705134730632017100, 213400800830907792525400,
  213610836768307883315100, 213820949369434168937500, 213880672110561944959400, 214210672110561944959400, 214421059230663035748600,
  214431059230663035748600, 214810540771802913779200, 214840704412705834668400, 215050684870227655430200, 215330903416201231093500,
  215360655806599220509000, 215420579858433782480300, 216960600989343149201000, 216980686060717906062050, 217190567598201573247100,
  217540705134730632017100, 217960467005819393818560, 218460824093137319400700, 218520804677535875305000, 218700834101483175099000,
  219140467005819393818560, 219170330235487020653800, 219270701575636121746900, 219300567781519681413200, 219470903416201231093500,
  219800604106478639495000, 219880665072482268779500, 220570567598201573247100, 220650658497344512501400, 220660817193850170705500,
  220700652756253791167500, 220931018684152224932000, 221220949369434168937500, 221240692235518612906800, 221790793554972364282600,
  222100793554972364282600, 222250658497344512501400, 222270834101483175099000, 222340668529616675288400, 222660654487898792313600,
  222710810739998056948400, 222780456162137009622200, 222910456162137009622200, 225700978137641414115700, 226091197860099147737500,
  227810941365163401583900, 227970958070571867900600, 228290781971790811770400, 228300425902700221779450, 228560538692725946871800,
  228590700186724905680200, 228650845224046686121400, 228800711878858711570400, 228940700186724905680200, 229180808678069336675000,
  229410808678069336675000, 229870405924480081675900, 229960884310677554822500, 230670793554972364282600, 230810795324930074222600,
  230890793554972364282600, 231301197860099147737500, 231940662201471680536400, 232410660796296334971340, 233050762189216478778400,
  233810893407855375395200, 233860722501080037101100, 234520417109094926118300, 235040721642705667962000, 235070669033396078284100,
  235170700878769190137500, 235190755976038368077800, 235220700878769190137500, 235510941365163401583900, 236370535453576367748200,
  236530686661320312083200, 236730785146660643228400, 237690690969678925714400, 238150826502892477306800, 240330722501080037101100,
  240691003269084242206300, 241011003269084242206300, 241840657142922001725700, 241870644917190396595250, 241890898286871792338500,
  241980448639794885863450, 241990637648217059767500, 243100762189216478778400, 243220435691599275276500, 243230499945571640856600,
  243280875972516660917600, 243370798961694491310100, 243380798961694491310100, 243470770193487246132100, 243570861130516149090200,
  243960861130516149090200, 244330920601226923759500, 244430654052168255418000, 244550831503934534773000, 244580678010396021155000,
  244590814995959498828200, 244730573832514630660650, 244810415096144511095300, 244900585391760058317100, 245050654052168255418000,
  245181197860099147737500, 245410788425642925527550, 245440722501080037101100, 245780676911483863595450, 245940469859273859318800,
  245980845224046686121400, 246040679681744118529100, 246090693517587455812900, 246290795324930074222600, 246430650213743954586500,
  246530625501588952499500, 246610569446683040657400, 246871018684152224932000, 247090611781476801151000, 247130702984110109920750,
  247240614671851419385900, 247260665559101233896700, 247351128545381091743100, 247420611781476801151000, 247531003269084242206300,
  247540668028362492933900, 247640762189216478778400, 247851018684152224932000, 247960603842973875694400, 248001087998870280926600,
  248090705862006564925100, 248140845224046686121400, 248630405997233813513600, 248680868276412547304800, 248710680811699643922450,
  249130731516189736530900, 249170933954366186211800, 249390676911483863595450, 249420589182626456506850, 249440670048633224685900,
  249500448639794885863450, 249510744600149832412000, 249740810739998056948400, 249760679681744118529100, 249860845224046686121400,
  249960868276412547304800, 250010854461378699223000, 250141197860099147737500, 250320715831942587233900, 250740705862006564925100,
  250860731516189736530900, 251010701575636121746900, 251120351967270819311430, 251210949369434168937500, 251360351967270819311430,
  251930479094382736242000, 251960517620622815306500, 252120663626673951256500, 252150604370679585778800, 252250903416201231093500,
  252330590325496038869200, 252340810739998056948400, 252420494157337679110000, 252980528033293736196300, 253040631217430336494400,
  253250661262497645552500, 253270836768307883315100, 253350705134730632017100, 253910797126780624490500, 254390629842838246030800,
  254800482554935653989600, 255140704412705834668400, 255230645714007361512900, 255580587157810373512100, 255620517620622815306500,
  255880564000691327419300, 256130629842838246030800, 256150705862006564925100, 256680512003595668601100, 256720933954366186211800,
  256820893407855375395200, 257030748996462174523600, 257710494157337679110000, 257760512953470884391800, 257830898286871792338500,
  257960645714007361512900, 257970540213142242915200, 258020462232111492662800, 258390933954366186211800, 258440479094382736242000,
  258470898286871792338500, 258800688485079067061400, 258850512003595668601100, 259320989915944979754000, 259410753594973498705900,
  259420978137641414115700, 259470607051805330844500, 259730989915944979754000, 259860607051805330844500, 260210619170361011066800,
  260270736348047463611600, 260860927055079037516600, 261140857740360981522000, 261570544626669925502700, 261650797126780624490500,
  261950603318038287080100, 262120766111287794106600, 262520861130516149090200, 262890797126780624490500, 263130603318038287080100,
  263330704412705834668400, 263520279224598225170430, 264600842325292998796200, 265000577606547428945300, 265050619477580914763900,
  265120563121178182136500, 266460570383897023543700, 268200499945571640856600, 268660570383897023543700, 270830577606547428945300,
  274270686661320312083200, 274500806657798604923000, 274530864639648130217300, 275110949369434168937500, 275160615555509599435700,
  275230836768307883315100, 275270845224046686121400, 275290658043828995962300, 275390741425280000954000, 275560845224046686121400,
  275660741425280000954000, 275700615555509599435700, 275720753594973498705900, 275900753594973498705900, 276050441436251630688500,
  277450941365163401583900, 277600845224046686121400, 277700978137641414115700, 277791059230663035748600, 277920764786765119104500,
  278320694816307008494100, 278440516186511088240800, 278500709579906889100500, 278750800830907792525400, 278870797126780624490500,
  278910766111287794106600, 279450516186511088240800, 279820657142922001725700, 280030672110561944959400, 280200770193487246132100,
  280370746774148496052600, 280410555373196757198800, 280680903416201231093500, 280850842325292998796200, 281801087998870280926600,
  282100707332621303894600, 282910591714407254935900, 282970821740087578381300, 283350690342717624354900, 283460711878858711570400,
  283640903416201231093500, 283720810739998056948400, 283820579445210053989300, 283990579445210053989300, 284171087998870280926600,
  285280591714407254935900, 285771087998870280926600, 286260639887116549115400, 286390657142922001725700, 286410733421009233600300,
  286550819441135755911500, 286930639887116549115400, 287960586713365197469700, 288100678010396021155000, 288430766111287794106600,
  289490694816307008494100, 289540615260088409692600, 290290694816307008494100, 291230588052670931113600, 292790933954366186211800,
  292870989915944979754000, 293100989915944979754000, 294540802735727289594800, 295570802735727289594800, 296450742472409987683500,
  299760714231908452589800, 300310574615297492685300, 300500441436251630688500, 300640435691599275276500, 300950565783269722679400,
  300970583013269555972900, 301030705134730632017100, 302090978137641414115700, 302740705134730632017100, 303150821740087578381300,
  303220821740087578381300, 304080528156674381089200, 304100941365163401583900, 304170675824516639905150, 304230471317126822342300,
  304280471317126822342300, 304350675824516639905150, 304500851286508867765000, 304681059230663035748600, 304960585173180736319050,
  305050728725310924823200, 305220914538764742116000, 305351059230663035748600, 305630506685369122570200, 305680831503934534773000,
  305850958070571867900600, 306451197860099147737500, 306510715028725417507400, 306840836768307883315100, 307650875972516660917600,
  307780888755853811906000, 310180888755853811906000, 310340568333499003772950, 310480766111287794106600, 310670707332621303894600,
  310950709579906889100500, 311420415096144511095300, 311530709579906889100500, 311770655806599220509000, 312520893407855375395200,
  313500668529616675288400, 313630584737450199423500, 313970672632756343074600, 314180672632756343074600, 314340584737450199423500,
  314540573249422599581300, 314591003269084242206300, 314780573249422599581300, 315180725121317276503500, 315261059230663035748600,
  318580684870227655430200, 319410989915944979754000, 319980696796569738112000, 320340687265551757679600, 321560933954366186211800]

def emitS54_1 : List Nat := [
  321731036916307904327500, 321870678010396021155000, 322160793554972364282600, 322640834101483175099000, 322830565424202909606500,
  323210884310677554822500, 323611128545381091743100, 323800432463181099860100, 324160696796569738112000, 324870432463181099860100,
  324991128545381091743100, 325001036916307904327500, 325080933954366186211800, 325090678010396021155000, 325160793554972364282600,
  325380565424202909606500, 325800698138871771326100, 326730978137641414115700, 326800978137641414115700, 327220898286871792338500,
  327680949369434168937500, 327920795324930074222600, 328240589638208110092950, 328380814995959498828200, 328520441540039911930500,
  328790441540039911930500, 328830589638208110092950, 328990851286508867765000, 329010851286508867765000, 329180927055079037516600,
  329460599214898619293800, 329610795324930074222600, 330290795324930074222600, 330371128545381091743100, 331040967601589848333000,
  332100764786765119104500, 332141128545381091743100, 332750821740087578381300, 332960733421009233600300, 332980802735727289594800,
  333221087998870280926600, 336160603318038287080100, 336430920601226923759500, 336690810739998056948400, 337950927055079037516600,
  338300834101483175099000, 338620864639648130217300, 339000519867908400512400, 339500810739998056948400, 340930920601226923759500,
  341640728725310924823200, 342140603318038287080100, 342490706594610574132350, 343140728725310924823200, 343850589182626456506850,
  344320608419815721252500, 345550691600595845040900, 345810691600595845040900, 346450608419815721252500, 347840702984110109920750,
  348930656250058927295600, 349620795324930074222600, 350291128545381091743100, 351400927055079037516600, 352060526807788202494700,
  352150978137641414115700, 352191018684152224932000, 352220436824337316453800, 352470978137641414115700, 352610864639648130217300,
  352640425947115057064350, 352660425947115057064350, 352680978137641414115700, 352691018684152224932000, 352700436824337316453800,
  352720864639648130217300, 352790978137641414115700, 353280330628616319383800, 353590678010396021155000, 353800941365163401583900,
  353860627149072672850050, 354260737343080548928400, 354520726907079016504200, 354650888755853811906000, 354750585610818196298900,
  354800623239780093722300, 354910694164838906374600, 354940607051805330844500, 354960768814155032898500, 355290770193487246132100,
  355330715831942587233900, 355530609527860298909700, 355630565783269722679400, 355650732464064131985300, 355690709579906889100500,
  355750759657435680349400, 355820880054716112943000, 355850618254324071200400, 355860933954366186211800, 355890817193850170705500,
  356090831503934534773000, 356270781971790811770400, 356630751269287282279200, 357000698138871771326100, 357090888755853811906000,
  357300757188174421312250, 357490751269287282279200, 357630709579906889100500, 357720678010396021155000, 357730759657435680349400,
  357850941365163401583900, 357860627149072672850050, 357880817193850170705500, 358010726907079016504200, 358100737343080548928400,
  358120715831942587233900, 358200694164838906374600, 358250623239780093722300, 358260768814155032898500, 358290607051805330844500,
  358340880054716112943000, 358390770193487246132100, 358550565783269722679400, 358580618254324071200400, 358590933954366186211800,
  358610732464064131985300, 358630757188174421312250, 358770609527860298909700, 358780831503934534773000, 358820781971790811770400,
  358920698138871771326100, 359380671074283241404800, 360020884310677554822500, 360110880054716112943000, 360290821740087578381300,
  360310861130516149090200, 360320558000605694216800, 360361003269084242206300, 360370958070571867900600, 360910989915944979754000,
  360920514126817679178500, 361060868276412547304800, 361090663626673951256500, 361290884310677554822500, 361410514126817679178500,
  361430880054716112943000, 361520861130516149090200, 361540558000605694216800, 361550821740087578381300, 361591003269084242206300,
  361650958070571867900600, 361850989915944979754000, 361900868276412547304800, 361930663626673951256500, 361960480464267172058200,
  362800683693743497471600, 362910569260289696851100, 363410752425369522386860, 363680752425369522386860, 363820713441390501878500,
  363961128545381091743100, 364240767453589827320600, 364410665559101233896700, 364890683693743497471600, 364930569260289696851100,
  364991128545381091743100, 365240700878769190137500, 366280562946200009757800, 366390712657072755775900, 366550826502892477306800,
  367410562946200009757800, 367490712657072755775900, 367530826502892477306800, 367760566143630473009200, 367770612639851170290100,
  367830612639851170290100, 367850831503934534773000, 368041197860099147737500, 368290639510468269567700, 368430559003958593174600,
  368480553446973477693600, 368660549855642955072300, 368700550471029512510150, 368740628824153715331600, 368800800830907792525400,
  368930621340988869253150, 368940681954569226284700, 369090893407855375395200, 369200642952490658215600, 369260477000065351717700,
  369290678010396021155000, 369430737343080548928400, 369490639510468269567700, 369510606509798583910600, 369560628824153715331600,
  369630478566677026157600, 369681018684152224932000, 369690549855642955072300, 369810686661320312083200, 369860606509798583910600,
  371960694816307008494100, 372170978137641414115700, 372280821740087578381300, 372410958070571867900600, 372461128545381091743100,
  373151128545381091743100, 373220774449448688011600, 373230774449448688011600, 373920695472047063109900, 374660933954366186211800,
  374920967601589848333000, 375210698138871771326100, 375280888755853811906000, 377230711878858711570400, 379310715028725417507400,
  379690967601589848333000, 380520695472047063109900, 380540864639648130217300, 380860933954366186211800, 381150698138871771326100,
  381250888755853811906000, 382030711878858711570400, 382200715028725417507400, 383050854461378699223000, 383210600989343149201000,
  383690739363351280680400, 384020854461378699223000, 384050600989343149201000, 384160739363351280680400, 384690819441135755911500,
  385040718281044588063460, 385181087998870280926600, 385490718281044588063460, 385550819441135755911500, 385980534791760583500400,
  386570810739998056948400, 387120791815798093095700, 387170810739998056948400, 387530664588219821200700, 387610546092971856510100,
  388160864639648130217300, 389240760915313901035400, 389300657592360960509700, 389670808678069336675000, 389690740389001297399300,
  390410657592360960509700, 390420760915313901035400, 390590740389001297399300, 390600808678069336675000, 391440726010212018228100,
  391640708825186325562200, 391860888755853811906000, 392550726010212018228100, 392820708825186325562200, 392970888755853811906000,
  393470549396575584212400, 393870646921265484939840, 394250754778419263406250, 394930551713281512365850, 395240989915944979754000,
  395360549396575584212400, 395370551713281512365850, 395420646921265484939840, 395630754778419263406250, 395910989915944979754000,
  397390802735727289594800, 401800732464064131985300, 404830732464064131985300, 405990989915944979754000]

def emitS56_0 : List Nat := [
  202390698425324995486200, 202400698425324995486200, 206210606796251808070700, 246160449934660016686200, 246510767740043051480700,
  248680251261445659129330, 249960251261445659129330, 250880767740043051480700, 252030767740043051480700, 254390202491125024615660,
  256130202491125024615660, 261270606796251808070700, 264290698425324995486200, 274500174250623489521960, 280200235439045137639940,
  281320588564096128675200, 300950103361069736713530, 306060606796251808070700, 306290698425324995486200, 310850519249378072680750,
  350900657878814184669700, 354080767740043051480700, 356740268018815675069200, 357840767740043051480700, 358850268018815675069200,
  360930281758802615313540, 361870281758802615313540]

def emitS59_0 : List Nat := [
  200730519410561609408400, 201090473820965435902800, 201470559098698051085650, 201630636417686874433800, 202110925454862664050300,
  202130994769580720044800, 202630775047122986422900, 204170502044212204324400, 204210432367830101311000, 204320775047122986422900,
  204440625881635308651200, 204470463942810979924400, 204510502044212204324400, 205080672881998233224800, 205170775047122986422900,
  205220833825789476634900, 205880730863847758519000, 206030654649842553829300, 206300775047122986422900, 206550730863847758519000,
  206660775047122986422900, 206740654649842553829300, 207160738274644973891200, 207230856140144608055700, 207690884908351853233900,
  209350517701118273478400, 209760994769580720044800, 210560711448246314423200, 210860925454862664050300, 211080711448246314423200,
  211220925454862664050300, 212630625881635308651200, 212640631010964747406260, 213430529373545704292500, 215220738274644973891200,
  215260690317336947702600, 215540695196353364645800, 216040618649569150688600, 216480639234774571103400, 216570764511071420640200,
  216590621002618891708000, 216680738274644973891200, 216840607649479629255750, 217140597740389364832700, 217250536272832852987700,
  217370711448246314423200, 217470705732404930428400, 217770561696246691411700, 217950856140144608055700, 218150515190526160370800,
  218200800178565814513500, 218230623412374049614000, 218250695196353364645800, 218330639234774571103400, 218570628413416107080200,
  218780711448246314423200, 218790587015836329472850, 218860539381891559990740, 218960856140144608055700, 219030676964197685250300,
  219370711448246314423200, 219900478864050798591900, 220550623412374049614000, 220920994769580720044800, 221120597740389364832700,
  221170536272832852987700, 221340456320074441135900, 221440621002618891708000, 221490668959926917896650, 221500994769580720044800,
  221840764511071420640200, 222500661549129702524500, 222570661549129702524500, 222610925454862664050300, 222760994769580720044800,
  222790925454862664050300, 223000571358930260318900, 223340815593633797239400, 223900616350617328218700, 225000925454862664050300,
  226610595871176063617400, 227160717510708496066750, 229480884908351853233900, 229820314641277272882820, 230450607649479629255750,
  230460676964197685250300, 230520588725279665402900, 230680301038172597676700, 230900582056142215535650, 231250572818810202434200,
  231460681220159127129850, 231490607649479629255750, 231590515190526160370800, 231950508788340283877600, 232070582056142215535650,
  232500658039997721397450, 233040676964197685250300, 233290658039997721397450, 234280625881635308651200, 235800884908351853233900,
  235960685665335384213200, 237020856140144608055700, 237550621002618891708000, 238460700325682803400800, 238960618649569150688600,
  239150665185894119611900, 239190631010964747406260, 239430856140144608055700, 239920618649569150688600, 244350730863847758519000,
  244570833825789476634900, 244580994769580720044800, 244690738274644973891200, 244800738274644973891200, 244880786825426552061200,
  245290884908351853233900, 245450754980053440207750, 245540884908351853233900, 246170833825789476634900, 247030542590723015140800,
  247940672881998233224800, 247970925454862664050300, 248320700325682803400800, 250990856140144608055700, 251080856140144608055700,
  253730545905943746830900, 253940711448246314423200, 257900545905943746830900, 258220522919693590535400, 258510522919693590535400,
  260030451835017824600800, 260050451835017824600800, 260620628413416107080200, 260950730863847758519000, 262970594036262196797700,
  264070557824795473342700, 264730580456108080891600, 264870695196353364645800, 265630994769580720044800, 266210723964560609823900,
  266360676964197685250300, 266530815593633797239400, 266750994769580720044800, 268910491074320478682000, 269160506489388461407800,
  269370730863847758519000, 269460672881998233224800, 270160577330853730481100, 270170665185894119611900, 270210723964560609823900,
  270500580456108080891600, 270920648195990440072200, 271350654649842553829300, 271760994769580720044800, 272600764511071420640200,
  272730723964560609823900, 272780800178565814513500, 272870833825789476634900, 273080523816560588811400, 273540577330853730481100,
  273580764511071420640200, 273680676964197685250300, 273840665185894119611900, 274070506489388461407800, 274470717510708496066750,
  275330925454862664050300, 275860569920056515109000, 276370833825789476634900, 276410994769580720044800, 276470833825789476634900,
  276550925454862664050300, 276600925454862664050300, 276610884908351853233900, 276670695196353364645800, 276980466449207846246000,
  276990466449207846246000, 277880800178565814513500, 279550609754820549039000, 282270597740389364832700, 282380565723636605205700,
  283830833825789476634900, 284610925454862664050300, 284700925454862664050300, 284860884908351853233900, 284910884908351853233900,
  286380648195990440072200, 287040884908351853233900, 287220884908351853233900, 287660524721544140803250, 287770833825789476634900,
  288590705732404930428400, 288740557824795473342700, 289110486629144221598500, 290020572818810202434200, 291070668959926917896650,
  292130994769580720044800, 293270723964560609823900, 293640786825426552061200, 293680994769580720044800, 293770601587017447612300,
  293840567102968818439300, 294260516857231408891950, 294280994769580720044800, 294310800178565814513500, 294340800178565814513500,
  294350476591225690836300, 294370567102968818439300, 294410994769580720044800, 294500775047122986422900, 294730925454862664050300,
  294990516857231408891950, 295050994769580720044800, 295270563020769366413800, 295480541509631404719300, 295510601587017447612300,
  295680925454862664050300, 295820764511071420640200, 296020746278915741244800, 296490746278915741244800, 297500603567280177230300,
  297610578881272384077700, 297860723964560609823900, 298150538334761573261200, 298270705732404930428400, 298620538334761573261200,
  299030746278915741244800, 301240884908351853233900, 301360856140144608055700, 301470884908351853233900, 301860536272832852987700,
  301870672881998233224800, 302130925454862664050300, 302240800178565814513500, 302270536272832852987700, 302350544788613687018300,
  302490884908351853233900, 302720833825789476634900, 302790672881998233224800, 302810925454862664050300, 303110884908351853233900,
  303990717510708496066750, 304720685665335384213200, 305620994769580720044800, 305650925454862664050300, 307430618649569150688600,
  308070595871176063617400, 308240618649569150688600, 308290723964560609823900, 308760645118824573396800, 308810925454862664050300,
  309470645118824573396800, 309620925454862664050300, 309730595871176063617400, 309950856140144608055700, 310060833825789476634900,
  310120994769580720044800, 310280925454862664050300, 310460542590723015140800, 313130539381891559990740, 313290539381891559990740,
  313520590464453936589800, 313600730863847758519000, 313810603567280177230300, 315570730863847758519000, 316500681220159127129850,
  316920884908351853233900, 317170925454862664050300, 320070668959926917896650, 320280535257595706585800, 320930717510708496066750,
  321630455862407738394700, 321740884908351853233900, 321840587015836329472850, 322170621002618891708000, 322420705732404930428400,
  323060563020769366413800, 323820435670882668959200, 324210668959926917896650, 324290535257595706585800, 324380587015836329472850,
  324680717510708496066750, 325070455862407738394700, 325140621002618891708000, 325200705732404930428400, 325510563020769366413800,
  325610435670882668959200, 326090588725279665402900, 326790578881272384077700, 326880636417686874433800, 328050994769580720044800,
  328210884908351853233900, 328450925454862664050300, 328810994769580720044800, 328890925454862664050300, 329150597740389364832700,
  329380534252562121235700, 329410665185894119611900, 329890685665335384213200, 329990557824795473342700, 330040648195990440072200,
  330090539381891559990740, 330680833825789476634900, 331290690317336947702600, 332780815593633797239400, 333200685665335384213200,
  333250775047122986422900, 333310690317336947702600, 333320645118824573396800, 333550623412374049614000, 333750738274644973891200,
  333840676964197685250300, 334050994769580720044800, 334070450961649827725300, 334180543683630068359850, 334220585335124497834800,
  334230569920056515109000, 334240549334851094694100, 334320738274644973891200, 334500548178768854586450, 334630583682194302713700,
  334700569920056515109000, 334730528425671308838100, 334760549334851094694100, 334800631010964747406260, 334900775047122986422900,
  334910681220159127129850, 335070582056142215535650, 335270460058827648298000, 335510572818810202434200, 335630884908351853233900,
  335940856140144608055700, 336070764511071420640200, 336280800178565814513500, 336440925454862664050300, 336610711448246314423200,
  336730520276367883719800, 337040685665335384213200, 337050746278915741244800, 337060633677789455622400, 337150676964197685250300,
  337180800178565814513500, 337280567102968818439300, 337480628413416107080200, 337570717510708496066750, 337610738274644973891200,
  337650764511071420640200, 337700611905441071135300, 337960645118824573396800, 337980711448246314423200, 338030723964560609823900,
  338070800178565814513500, 338480700325682803400800, 338810833825789476634900, 338840746278915741244800, 339070884908351853233900,
  339100775047122986422900, 339320738274644973891200, 339400676964197685250300, 339530994769580720044800, 339850856140144608055700,
  340160994769580720044800, 340190925454862664050300, 340310528425671308838100, 340450800178565814513500, 340470681220159127129850,
  340780738274644973891200, 341050815593633797239400, 341070800178565814513500, 341300925454862664050300, 341340618649569150688600,
  341420695196353364645800, 341480754980053440207750, 341670925454862664050300, 341700700325682803400800, 342070800178565814513500,
  342310676964197685250300, 342940631010964747406260, 343090597740389364832700, 343270833825789476634900, 343340815593633797239400,
  343380572818810202434200, 343430775047122986422900, 343620994769580720044800, 343640651370860271530200, 344260628413416107080200,
  344280481779709227737500, 344510572818810202434200, 344670648195990440072200, 344710481189737015018700, 344720594036262196797700,
  344740661549129702524500, 344900695196353364645800, 345000594036262196797700, 345050547035899272224200, 345130583682194302713700,
  345260595871176063617400, 345450636417686874433800, 345470614103331743012900, 345480577330853730481100, 345520668959926917896650]

def emitS59_1 : List Nat := [
  345540636417686874433800, 345700764511071420640200, 345730800178565814513500, 345780569920056515109000, 345790654649842553829300,
  345900994769580720044800, 345940764511071420640200, 346120994769580720044800, 346560590464453936589800, 346590925454862664050300,
  346600884908351853233900, 346610994769580720044800, 346900711448246314423200, 346920614103331743012900, 346930408976265271698900,
  346960592234411646529950, 346990815593633797239400, 347410884908351853233900, 347490833825789476634900, 347520651370860271530200,
  347580484175033329986800, 347790548178768854586450, 347890994769580720044800, 347940631010964747406260, 347980420790289502121400,
  348190856140144608055700, 348260575804106517402300, 348320577330853730481100, 348380572818810202434200, 348430633677789455622400,
  348760601587017447612300, 349210994769580720044800, 349990595871176063617400, 350040717510708496066750, 350390651370860271530200,
  350420690317336947702600, 350430738274644973891200, 350990856140144608055700, 351230690317336947702600, 351280856140144608055700,
  351650738274644973891200, 352380856140144608055700, 352780856140144608055700, 353150556566917252656700, 353350815593633797239400,
  354450511938206989814800, 355560550504455071013200, 356220994769580720044800, 358040511938206989814800, 358600550504455071013200,
  359130800178565814513500, 359730925454862664050300, 362110658039997721397450, 362920700325682803400800, 363020588725279665402900,
  363030625881635308651200, 363140690317336947702600, 363180685665335384213200, 363310528425671308838100, 363450618649569150688600,
  364280700325682803400800, 364640994769580720044800, 364850925454862664050300, 364870856140144608055700, 364950884908351853233900,
  364980685665335384213200, 365010994769580720044800, 365060618649569150688600, 365220884908351853233900, 366030625881635308651200,
  366180994769580720044800, 366740569920056515109000, 366920746278915741244800, 367080925454862664050300, 367220625881635308651200,
  367230925454862664050300, 367340994769580720044800, 367620746278915741244800, 368360545905943746830900, 368690705732404930428400,
  369020607649479629255750, 369620833825789476634900, 370080607649479629255750, 372320482970199478369400, 372610925454862664050300,
  376380599645208861902100, 377380498485117694054100, 378360569920056515109000, 378770645118824573396800, 381100856140144608055700,
  381190645118824573396800, 381660599645208861902100, 382140569920056515109000, 382840568501593015913300, 383160568501593015913300,
  383260603567280177230300, 383320631010964747406260, 383900568501593015913300, 384060568501593015913300, 384100603567280177230300,
  384150631010964747406260, 384340994769580720044800, 384660590464453936589800, 385030775047122986422900, 385370775047122986422900,
  385890476031000135969300, 386030476031000135969300, 386980994769580720044800, 387800614103331743012900, 387890611905441071135300,
  388310429872156903924300, 388340601587017447612300, 388360577330853730481100, 388570429872156903924300, 388730690317336947702600,
  388900690317336947702600, 389270994769580720044800, 390430994769580720044800, 391450540440102493044400, 392140605587550908982100,
  392410564363071399627900, 392720540440102493044400, 393030711448246314423200, 393130564363071399627900, 393840800178565814513500,
  394910623412374049614000, 395520800178565814513500, 395840623412374049614000, 396100611905441071135300, 396120633677789455622400,
  396210672881998233224800, 396310672881998233224800, 397470583682194302713700, 397520668959926917896650, 397530601587017447612300,
  397570633677789455622400, 397580601587017447612300, 399490554097655993619600, 399540994769580720044800, 399910775047122986422900,
  400580884908351853233900, 400970884908351853233900, 401020775047122986422900, 401330554097655993619600, 401340994769580720044800,
  402270614103331743012900, 402300676964197685250300, 402400597740389364832700, 402580594036262196797700, 402730475473895631023800,
  402740571358930260318900, 402890746278915741244800, 403290582056142215535650, 403390754980053440207750, 403440645118824573396800,
  403790545905943746830900, 403830705732404930428400, 404210685665335384213200, 404310705732404930428400, 404360685665335384213200,
  404770925454862664050300, 404900614103331743012900, 404950676964197685250300, 405020685665335384213200, 405050597740389364832700,
  405060594036262196797700, 405140925454862664050300, 405150475473895631023800, 405180571358930260318900, 405190685665335384213200,
  405210746278915741244800, 405230754980053440207750, 405290582056142215535650, 405330645118824573396800, 405360545905943746830900,
  405380705732404930428400, 405530705732404930428400, 406370415773563630319500, 407010539381891559990740, 407020539381891559990740,
  407290580456108080891600, 408100571358930260318900, 408120536272832852987700, 408410536272832852987700, 408420571358930260318900]

def emitS60_0 : List Nat := [
  200400360946099044631300, 200460492269228285399300, 208460560871184948970600, 215270197367079181834230, 215420569159950929547300,
  215430145080580577786080, 215580570715192230295800, 215680255355888711200200, 215710666015866971538500, 215840570715192230295800,
  215890645506318827287900, 215910612523549437033500, 216020162035931541879050, 216210520514247654644100, 216791037373073641969300,
  217030489031788619497650, 217050548087847797982100, 217270509222048818803800, 217370314172040475493500, 217640612523549437033500,
  217800575861021957843400, 218340204206423274635900, 218620312380519970170600, 218770658954110250143200, 219380509222048818803800,
  219490637859282428104100, 219660197367079181834230, 220290637859282428104100, 220360645506318827287900, 220430363755491769960900,
  220460741190001454138300, 221140501871802619511200, 274280651651596748654250, 274870651651596748654250, 289370986290511265370300,
  294630778346357097386700, 306910398966119693315200, 328220716827793188363300, 406360360946099044631300]

def emitS61_0 : List Nat := [
  235720000000000000000000, 292460000000000000000000]

def emitS63_0 : List Nat := [
  208730000000000000000000]

/-- The rows of `('S', tag)`, for the 64 tags. -/
def emitS : List (List (List Nat)) := [
  [emitS0_0],
  [emitS1_0],
  [emitS2_0],
  [emitS3_0],
  [emitS4_0],
  [emitS5_0],
  [emitS6_0],
  [emitS7_0],
  [],
  [emitS9_0],
  [emitS10_0],
  [],
  [emitS12_0],
  [emitS13_0, emitS13_1, emitS13_2, emitS13_3, emitS13_4],
  [emitS14_0],
  [],
  [],
  [emitS17_0],
  [],
  [emitS19_0],
  [],
  [],
  [emitS22_0],
  [emitS23_0],
  [],
  [emitS25_0, emitS25_1, emitS25_2],
  [emitS26_0, emitS26_1, emitS26_2],
  [emitS27_0, emitS27_1],
  [],
  [],
  [],
  [emitS31_0],
  [emitS32_0],
  [emitS33_0],
  [emitS34_0],
  [emitS35_0],
  [],
  [emitS37_0],
  [emitS38_0],
  [emitS39_0],
  [],
  [],
  [],
  [emitS43_0],
  [emitS44_0],
  [emitS45_0],
  [emitS46_0],
  [emitS47_0],
  [emitS48_0],
  [emitS49_0],
  [emitS50_0],
  [emitS51_0],
  [emitS52_0, emitS52_1, emitS52_2, emitS52_3, emitS52_4],
  [],
  [emitS54_0, emitS54_1],
  [],
  [emitS56_0],
  [],
  [],
  [emitS59_0, emitS59_1],
  [emitS60_0],
  [emitS61_0],
  [],
  [emitS63_0]]

end Jieba.PosData
