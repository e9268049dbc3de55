import Verif.Model.Basic
/-!
# jieba/posseg/prob_emit.py: the states with 'M'

Generated, in the order of the file.  An entry `'c': -x` is written as one number, `code point * 10^19 + x * 10^17`; long rows are
written as several lists.
-/

namespace Jieba.PosData

def emitM0_0 : List Nat := [
  199780661762576955387700, 199810221702274930706000, 200260464818512308836950, 201540455923763707187400, 206870449736223335378600,
  208090610680014578788600, 209860429851137460862100, 209980485403717729251800, 211600570133503767972200, 211700497539803429678600,
  211850497539803429678600, 212050570133503767972200, 214750731077295011382200, 215120215171765089929320, 215170661762576955387700,
  215310527389102285278300, 215470621216066144571200, 216080731077295011382200, 216190840938523878193100, 228230840938523878193100,
  228360771623805822198700, 229090204981137010955460, 229140428225085373684100, 235740661762576955387700, 244030551901348088576800,
  244710254859901531606650, 245150661762576955387700, 245550702309087766204150, 246910840938523878193100, 247580584443588132039500,
  248190592447858899393150, 248470200415678075109050, 248590527389102285278300, 249360840938523878193100, 250310840938523878193100,
  251040511354837277760300, 251630771623805822198700, 262230334048103656170100, 263640551901348088576800, 277940563679651654215100,
  278090563679651654215100, 279820460272274901161300, 286390460272274901161300, 287790610680014578788600, 288580464818512308836950,
  292330527389102285278300, 292450702309087766204150, 296090570133503767972200, 297020702309087766204150, 299830840938523878193100,
  300700551901348088576800, 304950646347508972661900, 305240632994369710209600, 306310840938523878193100, 312830551901348088576800,
  313370551901348088576800, 315280771623805822198700, 316490731077295011382200, 320050610680014578788600, 321470348213155362472730,
  324180610680014578788600, 324630348213155362472730, 326180464818512308836950, 327840251774102695616130, 330800610680014578788600,
  332250610680014578788600, 332580731077295011382200, 339220551901348088576800, 352010426625051239040000, 352150264419413599708750,
  352680264419413599708750, 354880840938523878193100, 356760646347508972661900, 358020840938523878193100, 358890646347508972661900,
  362150414670536174061700, 362590632994369710209600, 367930840938523878193100, 368070621216066144571200, 369130731077295011382200,
  369420621216066144571200, 369470500818785711977600, 370020840938523878193100, 382720771623805822198700, 382900731077295011382200,
  383760771623805822198700, 383860731077295011382200, 383910584443588132039500, 387540577032790916667350, 389570771623805822198700]

def emitM1_0 : List Nat := [
  234540074923664721098890, 235260074923664721098890, 308300074923664721098890, 309060074923664721098890, 321470349650756146648020,
  324630349650756146648020, 352150371965111278069000, 352680371965111278069000]

def emitM4_0 : List Nat := [
  199680326353993395491050, 199770967041992002422500, 199780528839328535034350, 199790641232338200274300, 199810828412555890433400,
  199870678004816212806000, 199940718551327023622500, 200130351556182600780700, 200270641232338200274300, 201350521607262377071700,
  201540857180763135611600, 201950967041992002422500, 201960703136259040896700, 202150828412555890433400, 202250727252464722585400,
  202560645154409515602500, 203020649236608967627900, 203030772450977096891100, 203070564506822928907600, 203160967041992002422500,
  203200718551327023622500, 203580967041992002422500, 203630703136259040896700, 204490828412555890433400, 204930747319534268800600,
  205810967041992002422500, 206480897727273946428000, 206590645154409515602500, 207290828412555890433400, 207860897727273946428000,
  208080897727273946428000, 208110641232338200274300, 208260828412555890433400, 208370710547056256268800, 208400967041992002422500,
  208430703136259040896700, 208440502602902088285200, 208510662589748230080200, 208590710547056256268800, 208910689783119778444400,
  208920513782042687096900, 209450551153683666455300, 210100689783119778444400, 210150897727273946428000, 210330579921890911633400,
  210460478761799743785400, 211230689783119778444400, 211470787866045079617000, 211510353919343054108400, 211530967041992002422500,
  211600411746033510260700, 211610787866045079617000, 212050411746033510260700, 212090967041992002422500, 213060759097837834438900,
  213120759097837834438900, 213330897727273946428000, 213810637458305401989600, 213820828412555890433400, 214070897727273946428000,
  214390759097837834438900, 214500828412555890433400, 214570672598094085778400, 214640967041992002422500, 214720570012800647210300,
  214750453462148297396350, 214880736783482703018000, 214950967041992002422500, 214960967041992002422500, 215120294538627785738250,
  215160897727273946428000, 215210517061024969396000, 215440537996047887583400, 215510967041992002422500, 215600897727273946428000,
  215920967041992002422500, 216440857180763135611600, 216970806098200759012500, 217290967041992002422500, 218300641232338200274300,
  218550967041992002422500, 219340897727273946428000, 219430828412555890433400, 221200897727273946428000, 221320828412555890433400,
  221360537996047887583400, 222350672598094085778400, 222380857180763135611600, 222420772450977096891100, 222690486639887529096900,
  222830486639887529096900, 222960772450977096891100, 223200637458305401989600, 223430736783482703018000, 223460967041992002422500,
  226120672598094085778400, 226610857180763135611600, 226860967041992002422500, 227210703136259040896700, 227880703136259040896700,
  227970626922253836207000, 228230449993592498607300, 228250412915637486579900, 228300772450977096891100, 228420828412555890433400,
  228550759097837834438900, 228900828412555890433400, 229960857180763135611600, 233760603283376029783900, 233830657937746666590900,
  233840759097837834438900, 233950678004816212806000, 233980623643271553907800, 234160623643271553907800, 234480598154046591028900,
  234500545091221484811900, 234530759097837834438900, 234780393384762254503300, 234940683720657596800850, 235070897727273946428000,
  235420759097837834438900, 235450566308673479175400, 235480787866045079617000, 235530489973529555856050, 235560747319534268800600,
  235600678004816212806000, 235650566308673479175400, 235660787866045079617000, 235670396663744536802380, 235740806098200759012500,
  236100689783119778444400, 236160630312409003775100, 236180385628938819915850, 236250772450977096891100, 236440772450977096891100,
  236460736783482703018000, 236520385628938819915850, 236600736783482703018000, 240340897727273946428000, 240370617391235855774500,
  240400857180763135611600, 240520857180763135611600, 240660593275030174085700, 240670582027231831416600, 240720772450977096891100,
  241020459524610479039800, 241070772450977096891100, 241180459524610479039800, 241200486639887529096900, 241790828412555890433400,
  241800351132453153229200, 242070857180763135611600, 242150747319534268800600, 242310637458305401989600, 242370736783482703018000,
  243070637458305401989600, 243200637458305401989600, 243220857180763135611600, 243430633821540984902100, 243520683720657596800850,
  243730683720657596800850, 243750806098200759012500, 243780806098200759012500, 244250967041992002422500, 244900857180763135611600,
  245150678004816212806000, 245350967041992002422500, 245650759097837834438900, 248470967041992002422500, 249300653492570409507500,
  251630747319534268800600, 252150857180763135611600, 252160560997690947780600, 252650747319534268800600, 252890828412555890433400,
  252990967041992002422500, 253110696236971892201500, 253450806098200759012500, 254800806098200759012500, 255090747319534268800600,
  255520703136259040896700, 256220772450977096891100, 256580530097206755720300, 256710772450977096891100, 257200787866045079617000,
  257730897727273946428000, 258360696236971892201500, 258840530097206755720300, 259100718551327023622500, 259180577859962191359900,
  259190551153683666455300, 259250747319534268800600, 259450828412555890433400, 259550828412555890433400, 259910857180763135611600,
  260070967041992002422500, 260090828412555890433400, 260290727252464722585400, 260320614405939540806400, 260390727252464722585400,
  260410593275030174085700, 260590653492570409507500, 260630678004816212806000, 260800772450977096891100, 260850967041992002422500,
  261020425877386816918500, 261260696236971892201500, 261430447746306913401400, 261490897727273946428000, 261780425877386816918500,
  262230718551327023622500, 262340828412555890433400, 263770542192467797486600, 264120696236971892201500, 264150897727273946428000,
  264260465314008320930000, 264380806098200759012500, 264690967041992002422500, 264940828412555890433400, 265190967041992002422500,
  265500967041992002422500, 265790967041992002422500, 266310718551327023622500, 266790967041992002422500, 266800633821540984902100,
  267230787866045079617000, 267510806098200759012500, 267990551153683666455300, 268000530097206755720300, 269890718551327023622500,
  271610718551327023622500, 271710967041992002422500, 272310465314008320930000, 272840787866045079617000, 274630689783119778444400,
  274910375152606575107850, 274940657937746666590900, 274950806098200759012500, 275110828412555890433400, 275830710547056256268800,
  276020857180763135611600, 276310718551327023622500, 276680487462937442748400, 276830487462937442748400, 277000828412555890433400,
  277450605950200738000100, 277840857180763135611600, 277850857180763135611600, 278330897727273946428000, 278350696236971892201500,
  278610857180763135611600, 278930967041992002422500, 279150967041992002422500, 279540759097837834438900, 279690683720657596800850,
  279820967041992002422500, 279870897727273946428000, 280100645154409515602500, 282070967041992002422500, 282340551153683666455300,
  282860857180763135611600, 283040511654302842368400, 286080967041992002422500, 286110897727273946428000, 286390967041992002422500,
  287710857180763135611600, 288560667468764647023400, 288570696236971892201500, 289090696236971892201500, 289610772450977096891100,
  291050696236971892201500, 291230897727273946428000, 291510557607535780212400, 292450897727273946428000, 292550828412555890433400,
  293050523960312118091100, 296150727252464722585400, 296160645154409515602500, 296450857180763135611600, 296640736783482703018000,
  296940645154409515602500, 297020465978462592796900, 298720727252464722585400, 299830495192104872913050, 299860521607262377071700,
  299920828412555890433400, 300010703136259040896700, 300050653492570409507500, 300110806098200759012500, 300280494303210131188500,
  300590806098200759012500, 300640857180763135611600, 300900570012800647210300, 303320672598094085778400, 304080759097837834438900,
  304520967041992002422500, 307010598154046591028900, 307070828412555890433400, 308650603283376029783900, 309130736783482703018000,
  311630759097837834438900, 311850787866045079617000, 312370703136259040896700, 312430626922253836207000, 312460703136259040896700,
  312830897727273946428000, 313370897727273946428000, 313480653492570409507500, 313500967041992002422500, 314350710547056256268800,
  314490573859428729989900, 315610557607535780212400, 315690573859428729989900, 315700703136259040896700, 316390608690098156811500,
  316800598154046591028900, 316840806098200759012500, 316890573859428729989900, 319340759097837834438900, 319950409447081687790900,
  320040577859962191359900, 320050667468764647023400, 320260967041992002422500, 320480480288546956864250, 320970787866045079617000,
  321130772450977096891100, 321290772450977096891100, 321470590921980433066300, 322180379268413824458600, 322910759097837834438900,
  323020696236971892201500, 323400772450977096891100, 324180667468764647023400, 324220577859962191359900, 324230967041992002422500,
  324470379268413824458600, 324540480288546956864250, 324550772450977096891100, 324630590921980433066300, 324650772450977096891100,
  324760787866045079617000, 324790772450977096891100, 325530696236971892201500, 325990806098200759012500, 326220772450977096891100,
  326450806098200759012500, 326760897727273946428000, 327800710547056256268800, 327890897727273946428000, 328440747319534268800600,
  328520857180763135611600, 328790857180763135611600, 328870747319534268800600, 329050696236971892201500, 329380857180763135611600,
  329820897727273946428000, 330210566308673479175400, 332580458282358479184100, 334020897727273946428000, 334100598154046591028900,
  335390806098200759012500, 337400736783482703018000, 338290557607535780212400, 340130787866045079617000, 341800967041992002422500,
  342530787866045079617000, 342550857180763135611600, 342690897727273946428000, 343890703136259040896700, 343990967041992002422500,
  348920449993592498607300, 348990897727273946428000, 350130759097837834438900, 350290967041992002422500, 350370759097837834438900,
  351990649236608967627900, 352150189388489183898480, 352680189388489183898480, 353020637458305401989600, 353200637458305401989600,
  353360736783482703018000, 353520967041992002422500, 353800828412555890433400, 354330806098200759012500, 355420967041992002422500,
  356570787866045079617000, 356720828412555890433400, 357220967041992002422500, 357450736783482703018000, 357600967041992002422500,
  357700967041992002422500, 357770787866045079617000, 357820828412555890433400, 357850828412555890433400, 357990806098200759012500,
  360000678004816212806000, 360310593275030174085700, 360760543631341542696600, 361270678004816212806000, 361340543631341542696600]

def emitM4_1 : List Nat := [
  361520593275030174085700, 362080759097837834438900, 362340491682972891786000, 362910637458305401989600, 363670857180763135611600,
  364930637458305401989600, 365570689783119778444400, 366170653492570409507500, 366290967041992002422500, 366500857180763135611600,
  366810611507185853481200, 367160611507185853481200, 367180857180763135611600, 367310967041992002422500, 367330653492570409507500,
  367860513782042687096900, 368170806098200759012500, 368280703136259040896700, 368740633821540984902100, 368900718551327023622500,
  368960897727273946428000, 369470967041992002422500, 369510967041992002422500, 369560633821540984902100, 369600703136259040896700,
  369860967041992002422500, 370660967041992002422500, 370960645154409515602500, 373250787866045079617000, 373270481838965610460800,
  373290515956041350737500, 373970897727273946428000, 374280828412555890433400, 375040579921890911633400, 377490897727273946428000,
  377820828412555890433400, 378060857180763135611600, 380620897727273946428000, 380830828412555890433400, 381340579921890911633400,
  381450828412555890433400, 381900897727273946428000, 382150857180763135611600, 382630498828869290000600, 382710498828869290000600,
  382830637458305401989600, 383640662589748230080200, 384530897727273946428000, 384540662589748230080200, 384690672598094085778400,
  384980772450977096891100, 384990897727273946428000, 385420662589748230080200, 385550672598094085778400, 385560564506822928907600,
  385920857180763135611600, 385980787866045079617000, 386260759097837834438900, 386510653492570409507500, 389280696236971892201500,
  390440696236971892201500, 390800967041992002422500, 391180967041992002422500, 391650857180763135611600, 391780710547056256268800,
  392810857180763135611600, 393400598154046591028900, 395320598154046591028900, 396360564506822928907600, 396400427679237367186400,
  397170967041992002422500, 402320772450977096891100, 404930772450977096891100, 406700696236971892201500, 406800828412555890433400,
  408010657937746666590900, 408360657937746666590900]

def emitM6_0 : List Nat := [
  199680210340461182306500, 199780504419576734575500, 199790371118277283880100, 199810374662952183454840, 200430409694280986763300,
  203070459163905170374000, 203580443634616729770500, 208540624189895865809500, 210690941995278900604100, 211520697760575363683700,
  214770448547885587534900, 214870434165884643597000, 215160251570364935319150, 222400367055980309778770, 223200722272821166982100,
  229140437652767208679450, 235450582264052841759500, 235650582264052841759500, 236010483498531033546900, 246880526106970564636900,
  251520265088502979779730, 255090395612098398043080, 260410148257809284274570, 261590387477534452647850, 263770639952790286167900,
  264690443634616729770500, 265240347191779982539500, 274920220324330229658340, 289820462003852622543750, 299780639952790286167900,
  303400389649386848112120, 304560526106970564636900, 304750727988662550977050, 327730366105101512876050, 327800406572779051970800,
  332670423816923871395500, 353280478038117630061700, 354410448547885587534900, 354980661659240809950600, 355420378516318583679160,
  357700378516318583679160, 358050448547885587534900, 358280661659240809950600, 362150832134050033793200, 368070607004870173143600,
  369420607004870173143600, 396360459163905170374000]

def emitM7_0 : List Nat := [
  199680138016742729238780, 199770952281261323518200, 199790561078960780703600, 199810267941809341343530, 200100485937351912311600,
  201080659607321116814300, 201650393931630445348360, 202500613278853217115200, 203070520088990263100650, 203580194705703611505590,
  204910485937351912311600, 206770393931630445348360, 208390813651825211529100, 208540614408808742508600, 208690813651825211529100,
  209190992827772134334700, 209341062142490190329300, 210170493106544757923200, 210461062142490190329300, 210630493106544757923200,
  211700514496134997178200, 211850514496134997178200, 212540553382856667090800, 214750718743769741814550, 214760901198698946919100,
  214870389279628881859050, 223200527909064993848100, 223590441686713933460150, 226020441686713933460150, 228060923513054078340200,
  228100501930608102359200, 228231062142490190329300, 228250637292965985393300, 228360554002053691882900, 228420901198698946919100,
  228560602630505176870200, 228900901198698946919100, 234500606754801030275100, 234540952281261323518200, 234810549152618698021800,
  235260952281261323518200, 236010633096546075490100, 240520602630505176870200, 241021062142490190329300, 241181062142490190329300,
  241330388090554229706900, 244180589403708319095200, 244710292748757639402020, 245370867551475284798000, 245760854198336022345700,
  245810923513054078340200, 246180784883617966351100, 247570923513054078340200, 247630715568899910356600, 248470582563435630655100,
  250790854198336022345700, 251100501930608102359200, 253840901198698946919100, 260410740254907703509200, 260890842420032456707300,
  261020362382891892136570, 261260725412907191681800, 261270854198336022345700, 261780362382891892136570, 263710613278853217115200,
  264120310553581668816660, 264650548562646485303100, 264690194705703611505590, 266310901198698946919100, 266810573862297931692100,
  267810548562646485303100, 271610901198698946919100, 274250451440201416103800, 274270901198698946919100, 274910842420032456707300,
  281450722022752024113700, 283101062142490190329300, 283160631735980869912250, 288570466558753243846200, 294080813651825211529100,
  299830778821155784707600, 300010371968769524671800, 303400753038244854497700, 304950798236757228803400, 305290555252069968306000,
  305560555252069968306000, 308300753038244854497700, 309060753038244854497700, 313890637292965985393300, 314010637292965985393300,
  323960688375528361992400, 324930688375528361992400, 327690703790596344718200, 327800813651825211529100, 329290992827772134334700,
  330210405475247210005100, 330501062142490190329300, 331391062142490190329300, 332580637292965985393300, 332670433356634174150700,
  352110547976134540063200, 352150649429051685820000, 352650547976134540063200, 352680649429051685820000, 353360672960460379266600,
  353520740254907703509200, 357450672960460379266600, 357600740254907703509200, 360000651055103772998050, 361270651055103772998050,
  363170651055103772998050, 363190592094453611087600, 363670562421262813917700, 365230722022752024113700, 366810675022389099540100,
  367160675022389099540100, 368070497245066374208600, 369420497245066374208600, 369470725412907191681800, 369530992827772134334700,
  369650992827772134334700, 382720901198698946919100, 383760901198698946919100, 384690216313281840721600, 384700688375528361992400,
  385200688375528361992400, 385550216313281840721600, 387540453011501982559400, 389570554002053691882900, 390150728922039172808800,
  390380728922039172808800, 393400854198336022345700, 395320854198336022345700, 395920701050698925906800, 396360520088990263100650,
  406700466558753243846200]

def emitM10_0 : List Nat := [
  234780000000000000000000]

def emitM12_0 : List Nat := [
  199780365028173526519460, 199790381536148562464300, 199960414671862157908600, 200130437284280103143300, 208390481633530472883600,
  208690481633530472883600, 210690474889402393330400, 212710085485790395439590, 213350116356513023195470, 215180367969562047148770,
  216080563309644125595900, 235450505117489580623800, 235650505117489580623800, 244030586948521932018900, 244600367969562047148770,
  264810414671862157908600, 300700586948521932018900, 330500394280643219276340, 331390394280643219276340, 351990220421563084538660,
  367930788438823986245400, 369130563309644125595900, 370020788438823986245400, 382910696809750798829900, 383880696809750798829900]

def emitM15_0 : List Nat := [
  199680404319553823875700, 199690974834962083018500, 199710699806665610470300, 199750557034897753603400, 199760980897424264662000,
  199770608780912503471500, 199780566981566463472700, 199790649706355181123000, 199810298168363535231370, 199820749396662965401700,
  199851018366769208803100, 199870940350913453845600, 199880889268351077246600, 199900602905507785181200, 199921018366769208803100,
  199931188841578432645600, 199940840717569499076400, 199951078980349565834700, 199960790873413042449500, 199970657029579048223900,
  200040642670487086998400, 200050936268714001820000, 200060722497669021438900, 200070759795634317806550, 200130601489053508316000,
  200160918036558322424600, 200181188841578432645600, 200200692557115406654860, 200240921426713489992700, 200250889268351077246600,
  200260485402785441095300, 200271001661360742486400, 200290779407122210435500, 200300682899032606076900, 200351148295067621829300,
  200370719706790209731200, 200401258156296488640200, 200410708439473959320000, 200430403190258333266300, 200440815074616604308800,
  200450871036195397851100, 200460707623142895403840, 200470949052051152808600, 200480667620111683183100, 200541188841578432645600,
  200560815074616604308800, 200610757092767079014500, 200620969119120699023600, 200631078980349565834700, 200641148295067621829300,
  200650810422615040819500, 200700783663083652315200, 200800843842823849486800, 200810638920047541152950, 200831018366769208803100,
  200940949052051152808600, 200980638920047541152950, 201020644599807380466200, 201040980897424264662000, 201050795659015160213000,
  201070588452871721991700, 201080675261734727619400, 201100587960259888386100, 201110873141536317634200, 201130640986236747548600,
  201141188841578432645600, 201160660267719998528000, 201170761174966531040100, 201290899804402643029100, 201300980897424264662000,
  201320632581292313303500, 201331258156296488640200, 201340811565484623181800, 201360994250563527114300, 201390974834962083018500,
  201401258156296488640200, 201410974834962083018500, 201420980897424264662000, 201460786306409359130700, 201540441933189940522200,
  201610789943173776218200, 201650873141536317634200, 201660816272235708980400, 201670789943173776218200, 201700741677699096288700,
  201711001661360742486400, 201740720628455720223650, 201821119526860376651100, 201831050212142320656600, 201840994250563527114300,
  201850953704052716298000, 201950651545487478265350, 201960817484371762214800, 201970528176559812824000, 202021038433838755018200,
  202080842267988152673000, 202101038433838755018200, 202141258156296488640200, 202150701321846112530400, 202190800685198638301900,
  202211148295067621829300, 202251038433838755018200, 202341258156296488640200, 202381018366769208803100, 202390882036284919284000,
  202400873141536317634200, 202470682899032606076900, 202481018366769208803100, 202500774528105793492300, 202551119526860376651100,
  202560864973733216207600, 202600837687034549543500, 202620743406848807294800, 202661038433838755018200, 202780847068910071309000,
  202801258156296488640200, 202840778577241928966050, 203011009665631509840200, 203021038433838755018200, 203030861127105133428000,
  203070749396662965401700, 203080905520244027024000, 203090719249123506990100, 203130735045434803181500, 203151078980349565834700,
  203160569503132235589100, 203390840717569499076400, 203510830489684587034600, 203550868974266677577500, 203580599263648735288300,
  203810714784096133216200, 203910958583069133241000, 204150953704052716298000, 204190928572609888207300, 204260889268351077246600,
  204300969119120699023600, 204321038433838755018200, 204390810422615040819500, 204450884389334660303400, 204490684499066740721000,
  204610848721840266430000, 204620921426713489992700, 204650657767589777986200, 204931119526860376651100, 204980685797786293402000,
  205061258156296488640200, 205080940350913453845600, 205111188841578432645600, 205170969119120699023600, 205201188841578432645600,
  205211097212505245230000, 205230743406848807294800, 205381188841578432645600, 205400857422977965393000, 205420940350913453845600,
  205510780243947177487200, 205531119526860376651100, 205581258156296488640200, 205590845442857984131000, 205651038433838755018200,
  205700853851169705185000, 205720829110352373801000, 205810980897424264662000, 205960958583069133241000, 205990773737587842781000,
  206051038433838755018200, 206070866953995945825500, 206131097212505245230000, 206210882036284919284000, 206251078980349565834700,
  206330834745646028914100, 206580949052051152808600, 206590864973733216207600, 206611188841578432645600, 206630837687034549543500,
  206671063565281583108800, 206700940350913453845600, 206770873141536317634200, 206871148295067621829300, 206930816272235708980400,
  207111188841578432645600, 207290701321846112530400, 207310936268714001820000, 207361038433838755018200, 207420897064505224217800,
  207450848721840266430000, 207541119526860376651100, 207670866953995945825500, 207781018366769208803100, 207990908505540341992200,
  208011148295067621829300, 208050928572609888207300, 208070809292659515426200, 208080697209116970144200, 208090645033647540326100,
  208110994250563527114300, 208131063565281583108800, 208180908505540341992200, 208201038433838755018200, 208260940350913453845600,
  208340723922871292159000, 208370622893356856683500, 208391009665631509840200, 208400657029579048223900, 208410642670487086998400,
  208430562311457158874600, 208440720166561134594200, 208450711773115986079100, 208481258156296488640200, 208490687445270013752550,
  208510737207681204498000, 208520722497669021438900, 208530642670487086998400, 208540477690366783029900, 208550809292659515426200,
  208560855621127415125200, 208571148295067621829300, 208590798644311475181100, 208600795659015160213000, 208610875292156839730700,
  208691009665631509840200, 208770770636564168525000, 208820875292156839730700, 208850857422977965393000, 208891148295067621829300,
  208910654130825360898700, 208921188841578432645600, 208960834745646028914100, 209000958583069133241000, 209011001661360742486400,
  209081063565281583108800, 209111119526860376651100, 209120924935845471119800, 209140739977941459431700, 209150918036558322424600,
  209170845442857984131000, 209190924935845471119800, 209231027897787189235500, 209280886799089818209300, 209321097212505245230000,
  209341258156296488640200, 209391119526860376651100, 209400861127105133428000, 209411027897787189235500, 209430829110352373801000,
  209550803826818261639700, 209560803826818261639700, 209571050212142320656600, 209600914757576040125500, 209610868974266677577500,
  209640894397680516001600, 209730987351276378419100, 209761097212505245230000, 209820809292659515426200, 209841188841578432645600,
  209860590826499711874750, 209870918036558322424600, 209891258156296488640200, 209910886799089818209300, 209920713052451132070100,
  209950808175329455613700, 209980607877291897077750, 209990716991691303136100, 210090894397680516001600, 210100836205525971029400,
  210150766158203905827700, 210170866953995945825500, 210181119526860376651100, 210191063565281583108800, 210210840717569499076400,
  210290771402851443081900, 210330670663223403437100, 210350771402851443081900, 210380994250563527114300, 210400657767589777986200,
  210460696116209916925100, 210501050212142320656600, 210510830489684587034600, 210630866953995945825500, 210690662572559542157100,
  210730873141536317634200, 210760848721840266430000, 210831119526860376651100, 210851050212142320656600, 210931050212142320656600,
  210970836205525971029400, 211030733453889272591600, 211060987351276378419100, 211091063565281583108800, 211230836205525971029400,
  211330873141536317634200, 211470598033284615752500, 211510652712361861703100, 211520702473490318686360, 211530741677699096288700,
  211551148295067621829300, 211600546354676042106800, 211610784536451649190600, 211630817484371762214800, 211701078980349565834700,
  211710766890807915034900, 211830627894398914149700, 211851078980349565834700, 211870677342047490595800, 211910796644244804514200,
  212020825082962460007000, 212050546354676042106800, 212090741677699096288700, 212130680391064166374450, 212140766890807915034900,
  212180627894398914149700, 212201119526860376651100, 212460918036558322424600, 212470914757576040125500, 212530873141536317634200,
  212541018366769208803100, 212691258156296488640200, 212700712624184952870000, 212710813891170839608500, 212800940350913453845600,
  212811148295067621829300, 212940924935845471119800, 212951188841578432645600, 212970924935845471119800, 213050886799089818209300,
  213070940350913453845600, 213110853851169705185000, 213130800685198638301900, 213150629370440472461700, 213190889268351077246600,
  213220667620111683183100, 213260761174966531040100, 213270796644244804514200, 213290932346642686492000, 213300969119120699023600,
  213310863031924630497500, 213320796644244804514200, 213330897064505224217800, 213340845442857984131000, 213350758435069112228600,
  213380924935845471119800, 213401001661360742486400, 213440905520244027024000, 213510866953995945825500, 213551097212505245230000,
  213591027897787189235500, 213601258156296488640200, 213610771402851443081900, 213630609692772925114900, 213640861127105133428000,
  213670871036195397851100, 213681148295067621829300, 213710861127105133428000, 213751038433838755018200, 213820836205525971029400,
  213850831888308784508500, 213870905520244027024000, 213880810422615040819500, 214001258156296488640200, 214020819953633021252000,
  214070842267988152673000, 214100826407485135009200, 214131050212142320656600, 214141050212142320656600, 214210810422615040819500,
  214221009665631509840200, 214260831888308784508500, 214350650392072153736760, 214420891800131875675500, 214430891800131875675500,
  214480882036284919284000, 214500656540580518804800, 214511078980349565834700, 214520809292659515426200, 214530667892963148503500,
  214570665197382149650700, 214620735581629117320000, 214630780243947177487200, 214640810422615040819500, 214670864973733216207600,
  214711258156296488640200, 214720980897424264662000, 214741078980349565834700, 214750555336153282839700, 214760739417715904564700,
  214770894397680516001600, 214781258156296488640200, 214820963712398571996200, 214830974834962083018500, 214861097212505245230000,
  214870447293969653180800, 214880875292156839730700, 214900940350913453845600, 214910701704255756370800, 214930908505540341992200,
  214940859257891832212700, 214950839190822285997700, 214960928572609888207300, 214970825082962460007000, 215050739417715904564700]

def emitM15_1 : List Nat := [
  215070654369204496426350, 215080918036558322424600, 215120672649104268397400, 215130831888308784508500, 215140786306409359130700,
  215160587592387002639900, 215170572615416627647400, 215180672936048511192700, 215200721092493675873850, 215210754461036247277200,
  215220902621490339698700, 215231097212505245230000, 215251119526860376651100, 215310761174966531040100, 215331018366769208803100,
  215340697576089859040400, 215351097212505245230000, 215361148295067621829300, 215420918036558322424600, 215471050212142320656600,
  215480694677336171715200, 215491018366769208803100, 215510855621127415125200, 215580932346642686492000, 215601038433838755018200,
  215610732928953683977200, 215661097212505245230000, 215681148295067621829300, 215701119526860376651100, 215741038433838755018200,
  215761038433838755018200, 215780767628818644797200, 215840932346642686492000, 215920936268714001820000, 215960944606874895725200,
  216080724402488518508300, 216171078980349565834700, 216190776128139928136500, 216210894397680516001600, 216271050212142320656600,
  216280712624184952870000, 216290782797277378003600, 216321258156296488640200, 216360796644244804514200, 216440830489684587034600,
  216461009665631509840200, 216500958583069133241000, 216680902621490339698700, 216710918036558322424600, 216750821211511241938000,
  216760847068910071309000, 216960864973733216207600, 216971001661360742486400, 217000848721840266430000, 217051018366769208803100,
  217190958583069133241000, 217290936268714001820000, 217330940350913453845600, 217410807070345836955200, 217461001661360742486400,
  217561097212505245230000, 217670902621490339698700, 217960831888308784508500, 218070932346642686492000, 218090932346642686492000,
  218271188841578432645600, 218300953704052716298000, 218390747561749098582100, 218550855621127415125200, 218630980897424264662000,
  218841188841578432645600, 218910837687034549543500, 218920711350282375127000, 218980776128139928136500, 218990902621490339698700,
  219120756428312807147700, 219140831888308784508500, 219160730344830565588400, 219170899804402643029100, 219270891800131875675500,
  219300759795634317806550, 219340897064505224217800, 219430899804402643029100, 219470839190822285997700, 219721038433838755018200,
  219780944606874895725200, 219831258156296488640200, 220070953704052716298000, 220220825082962460007000, 220380980897424264662000,
  220390886799089818209300, 220570958583069133241000, 220660940350913453845600, 220680775324922758410000, 220700839190822285997700,
  220940953704052716298000, 221201188841578432645600, 221211258156296488640200, 221320899804402643029100, 221511097212505245230000,
  221790873141536317634200, 221960936268714001820000, 222040914757576040125500, 222100873141536317634200, 222180879737333096814000,
  222350727329526748519700, 222380700940893270863700, 222400848721840266430000, 222420798644311475181100, 222531038433838755018200,
  222560804896347173314600, 222601018366769208803100, 222611097212505245230000, 222650949052051152808600, 222661188841578432645600,
  222690719706790209731200, 222700771402851443081900, 222780905520244027024000, 222791097212505245230000, 222830719706790209731200,
  222851018366769208803100, 222901038433838755018200, 222910905520244027024000, 222940771402851443081900, 222960798644311475181100,
  223030638308424839409300, 223071009665631509840200, 223120542772916330755900, 223171078980349565834700, 223200576702006762644300,
  223300889268351077246600, 223430891800131875675500, 223511258156296488640200, 223520905520244027024000, 223530953704052716298000,
  223591258156296488640200, 223620958583069133241000, 223631188841578432645600, 223671078980349565834700, 223681050212142320656600,
  223741119526860376651100, 224020864973733216207600, 224181258156296488640200, 224340899804402643029100, 224351148295067621829300,
  224670790873413042449500, 224750842267988152673000, 224780784536451649190600, 225190808175329455613700, 225221063565281583108800,
  225300708030475434167400, 225330958583069133241000, 225451097212505245230000, 225491148295067621829300, 225700699057598437554400,
  225770769876104230003000, 225800889268351077246600, 226021258156296488640200, 226040748781276407963950, 226091050212142320656600,
  226150766890807915034900, 226220908505540341992200, 226350873141536317634200, 226450742250766567187300, 226491097212505245230000,
  226590882036284919284000, 226810848721840266430000, 226841050212142320656600, 226860831888308784508500, 226960905520244027024000,
  227021148295067621829300, 227071078980349565834700, 227210765430927972919700, 227271188841578432645600, 227371119526860376651100,
  227390905520244027024000, 227441258156296488640200, 227501258156296488640200, 227560866953995945825500, 227630879737333096814000,
  227660782797277378003600, 227670782797277378003600, 227680560521489443865300, 227741038433838755018200, 227781038433838755018200,
  227810886799089818209300, 227880769121383666464700, 227910834745646028914100, 227970645251275482585650, 228050830489684587034600,
  228060667076632084587500, 228100586739243497693000, 228120735045434803181500, 228180795659015160213000, 228230478386092936971200,
  228250491909514968616400, 228260798644311475181100, 228270770636564168525000, 228290914757576040125500, 228330623944154616525000,
  228360516278208213560800, 228390840717569499076400, 228400928572609888207300, 228410891800131875675500, 228420741677699096288700,
  228460891800131875675500, 228520803826818261639700, 228550755768244404012500, 228560632007128056535900, 228570850402552098068100,
  228590726344297104218500, 228680777754192015314500, 228690924935845471119800, 228711188841578432645600, 228820861127105133428000,
  228900741677699096288700, 228940726344297104218500, 228990750015859990193900, 229040908505540341992200, 229090670944517541098600,
  229140482665269286497200, 229160747561749098582100, 229180857422977965393000, 229190963712398571996200, 229200894397680516001600,
  229301063565281583108800, 229341078980349565834700, 229370763992054227709700, 229410857422977965393000, 229710921426713489992700,
  229870782797277378003600, 229890905520244027024000, 229931258156296488640200, 229950921426713489992700, 229960963712398571996200,
  229990905520244027024000, 230140908505540341992200, 230351097212505245230000, 230390801721477341856600, 230410894397680516001600,
  230470953704052716298000, 230590994250563527114300, 230680963712398571996200, 231100822485413819681000, 231300969119120699023600,
  231380994250563527114300, 231420963712398571996200, 231461148295067621829300, 231590963712398571996200, 231860928572609888207300,
  231940969119120699023600, 232290894397680516001600, 232410953704052716298000, 232670958583069133241000, 233080953704052716298000,
  233760688111939149571500, 233800871036195397851100, 233830755112504349396600, 233840742250766567187300, 233850936268714001820000,
  233880974834962083018500, 233891050212142320656600, 233960848721840266430000, 233980764708903175570900, 234030936268714001820000,
  234160764708903175570900, 234180949052051152808600, 234211009665631509840200, 234250908505540341992200, 234271148295067621829300,
  234290953704052716298000, 234310918036558322424600, 234320766158203905827700, 234330701321846112530400, 234360911582706208667500,
  234390902621490339698700, 234470818711381021396400, 234480720166561134594200, 234500685146318191282700, 234520866953995945825500,
  234530797639277889831000, 234540684177005270716700, 234560857422977965393000, 234580980897424264662000, 234591027897787189235500,
  234600980897424264662000, 234671097212505245230000, 234701097212505245230000, 234720974834962083018500, 234750850402552098068100,
  234770944606874895725200, 234780595617059687844550, 234810620144042798663600, 234851097212505245230000, 234860980897424264662000,
  234871119526860376651100, 234900944606874895725200, 234940761174966531040100, 234951188841578432645600, 235000662313827185662000,
  235040863031924630497500, 235060732928953683977200, 235170958583069133241000, 235190848721840266430000, 235210704029941972797500,
  235220958583069133241000, 235250809292659515426200, 235260684177005270716700, 235270908505540341992200, 235311148295067621829300,
  235321097212505245230000, 235410857422977965393000, 235420797639277889831000, 235440799659548621582950, 235450845442857984131000,
  235470723445543416893200, 235510886799089818209300, 235530918036558322424600, 235561097212505245230000, 235580743989940838374150,
  235590743989940838374150, 235600940350913453845600, 235620817484371762214800, 235630723445543416893200, 235650845442857984131000,
  235670595087957924403000, 235690902621490339698700, 235720797639277889831000, 235741097212505245230000, 235760742250766567187300,
  235780918036558322424600, 235810886799089818209300, 235880921426713489992700, 236010710092404154441000, 236041119526860376651100,
  236071119526860376651100, 236080850402552098068100, 236100944606874895725200, 236130619974694748030300, 236140905520244027024000,
  236150953704052716298000, 236161027897787189235500, 236171063565281583108800, 236181009665631509840200, 236210751896793185943500,
  236240745759898548314200, 236270924935845471119800, 236290850402552098068100, 236311038433838755018200, 236330866953995945825500,
  236481063565281583108800, 236521009665631509840200, 236530863031924630497500, 236631038433838755018200, 236650587714860992229400,
  236731018366769208803100, 236810958583069133241000, 236920839190822285997700, 237020969119120699023600, 237071148295067621829300,
  237211188841578432645600, 237360882036284919284000, 237811097212505245230000, 237820980897424264662000, 237890840717569499076400,
  237920911582706208667500, 237981148295067621829300, 238030789943173776218200, 238151119526860376651100, 238300781087834042073700,
  238421097212505245230000, 238490751896793185943500, 238961119526860376651100, 239430969119120699023600, 239611038433838755018200,
  239921119526860376651100, 240180980897424264662000, 240291188841578432645600, 240301119526860376651100, 240331258156296488640200,
  240341050212142320656600, 240370816272235708980400, 240381063565281583108800, 240390762573590728514100, 240400818711381021396400,
  240430963712398571996200, 240460696479186721983000, 240490764708903175570900, 240500799659548621582950, 240520921426713489992700,
  240550891800131875675500, 240621050212142320656600, 240660847068910071309000, 240670936268714001820000, 240700805977438783736100,
  240720803826818261639700, 240860980897424264662000, 240880897064505224217800, 240901188841578432645600, 240920871036195397851100]

def emitM15_2 : List Nat := [
  240931119526860376651100, 241020803826818261639700, 241070803826818261639700, 241090847068910071309000, 241180803826818261639700,
  241190889268351077246600, 241200793717206574502800, 241240936268714001820000, 241510936268714001820000, 241590871036195397851100,
  241780777754192015314500, 241790647454007714414700, 241800656784780884360000, 241820722497669021438900, 241841063565281583108800,
  241850777754192015314500, 241861258156296488640200, 241870899804402643029100, 241881097212505245230000, 241900914757576040125500,
  241910726835698584461400, 241960911582706208667500, 242020894397680516001600, 242070801721477341856600, 242120646346576684505350,
  242130871036195397851100, 242200958583069133241000, 242230944606874895725200, 242300780243947177487200, 242370784536451649190600,
  242470987351276378419100, 242480859257891832212700, 242580826407485135009200, 242641050212142320656600, 242650873141536317634200,
  242851009665631509840200, 242900944606874895725200, 242910726835698584461400, 243100884389334660303400, 243140994250563527114300,
  243200649025308280870300, 243220735581629117320000, 243230861127105133428000, 243240779407122210435500, 243351188841578432645600,
  243390873141536317634200, 243410953704052716298000, 243431078980349565834700, 243511063565281583108800, 243520688111939149571500,
  243570969119120699023600, 243580836205525971029400, 243610810422615040819500, 243670857422977965393000, 243690879737333096814000,
  243730688111939149571500, 243750685146318191282700, 243770882036284919284000, 243780685146318191282700, 243920882036284919284000,
  243960969119120699023600, 243980857422977965393000, 244020700940893270863700, 244030609845561342920300, 244051097212505245230000,
  244180681324196909262900, 244250750638914965257400, 244280833306772283704200, 244330685797786293402000, 244430866953995945825500,
  244440727329526748519700, 244480713482559322009200, 244490772175056052472900, 244520796644244804514200, 244530728324559833836500,
  244551027897787189235500, 244591063565281583108800, 244600672936048511192700, 244641188841578432645600, 244650796644244804514200,
  244661027897787189235500, 244710598305393627188600, 244731148295067621829300, 244780720628455720223650, 244900781938903008864550,
  244940861127105133428000, 245010772175056052472900, 245030902621490339698700, 245050866953995945825500, 245150442361945778136500,
  245170696843485849833100, 245180852111995433998200, 245240759113037810766500, 245250823775754303271800, 245290799659548621582950,
  245350843842823849486800, 245360765430927972919700, 245370778577241928966050, 245440866953995945825500, 245450759795634317806550,
  245510716991691303136100, 245550837687034549543500, 245650737755627780960600, 245730905520244027024000, 245741188841578432645600,
  245751097212505245230000, 245760794683397665676600, 245770808175329455613700, 245911063565281583108800, 245940749396662965401700,
  245970813891170839608500, 246041258156296488640200, 246050576045549262993600, 246130703638552040683900, 246150738860611399619100,
  246160894397680516001600, 246171148295067621829300, 246180736120713980807650, 246430842267988152673000, 246510875292156839730700,
  246530857422977965393000, 246560761174966531040100, 246741097212505245230000, 246751050212142320656600, 246770886799089818209300,
  246801027897787189235500, 246810755768244404012500, 246841097212505245230000, 246850766158203905827700, 246870693965589394828800,
  246940696479186721983000, 247090798644311475181100, 247240861127105133428000, 247300805977438783736100, 247390866953995945825500,
  247420798644311475181100, 247480894397680516001600, 247511050212142320656600, 247531050212142320656600, 247540886799089818209300,
  247580864973733216207600, 247730604487136729509600, 247780606389169197412700, 247850799659548621582950, 247891258156296488640200,
  247960879737333096814000, 247990899804402643029100, 248001119526860376651100, 248010696479186721983000, 248081001661360742486400,
  248090924935845471119800, 248130949052051152808600, 248150918036558322424600, 248190650621693379771800, 248200861127105133428000,
  248220735045434803181500, 248250928572609888207300, 248260894397680516001600, 248330940350913453845600, 248400879737333096814000,
  248460936268714001820000, 248470573568308962235200, 248581188841578432645600, 248591018366769208803100, 248630857422977965393000,
  248680783663083652315200, 248711038433838755018200, 248941188841578432645600, 248950788108259909398500, 249040859257891832212700,
  249070808175329455613700, 249080662313827185662000, 249100879737333096814000, 249201001661360742486400, 249220949052051152808600,
  249300974834962083018500, 249310918036558322424600, 249351119526860376651100, 249360723922871292159000, 249420918036558322424600,
  249511001661360742486400, 249620716991691303136100, 249740958583069133241000, 249761258156296488640200, 249770987351276378419100,
  249960783663083652315200, 250031050212142320656600, 250140852111995433998200, 250260963712398571996200, 250320914757576040125500,
  250330646346576684505350, 250421027897787189235500, 250740924935845471119800, 250781027897787189235500, 250790794683397665676600,
  250800894397680516001600, 250880875292156839730700, 250960845442857984131000, 251020949052051152808600, 251030980897424264662000,
  251040541684258611454400, 251050710092404154441000, 251060963712398571996200, 251120687113594751153200, 251140958583069133241000,
  251191063565281583108800, 251300720628455720223650, 251341009665631509840200, 251360687113594751153200, 251380980897424264662000,
  251400779407122210435500, 251420710092404154441000, 251430710092404154441000, 251510817484371762214800, 251520453213590777570800,
  251591097212505245230000, 251630543952639017959900, 251650716991691303136100, 251660863031924630497500, 251690974834962083018500,
  251701038433838755018200, 251710640154631123382900, 251760894397680516001600, 251910808175329455613700, 251941258156296488640200,
  251950827749787168223200, 251960659762668419921100, 251971050212142320656600, 251991148295067621829300, 252001078980349565834700,
  252060940350913453845600, 252151119526860376651100, 252160924935845471119800, 252261078980349565834700, 252340894397680516001600,
  252370704029941972797500, 252380853851169705185000, 252390894397680516001600, 252400750638914965257400, 252421258156296488640200,
  252500894397680516001600, 252530769876104230003000, 252590918036558322424600, 252600871036195397851100, 252650897064505224217800,
  252730833306772283704200, 252770924935845471119800, 252821258156296488640200, 252851188841578432645600, 252860963712398571996200,
  252881018366769208803100, 252890879737333096814000, 252930902621490339698700, 252990914757576040125500, 253000799659548621582950,
  253021078980349565834700, 253040819953633021252000, 253051119526860376651100, 253070809292659515426200, 253080928572609888207300,
  253150969119120699023600, 253170780243947177487200, 253200958583069133241000, 253210812721566863289400, 253241188841578432645600,
  253291078980349565834700, 253310836205525971029400, 253400969119120699023600, 253421009665631509840200, 253430873141536317634200,
  253450746356915246964600, 253460840717569499076400, 253510719706790209731200, 253521119526860376651100, 253610889268351077246600,
  253740994250563527114300, 253760911582706208667500, 253790953704052716298000, 253800932346642686492000, 253810958583069133241000,
  253840853851169705185000, 253861188841578432645600, 253910812721566863289400, 254021258156296488640200, 254050825082962460007000,
  254170801721477341856600, 254191188841578432645600, 254231078980349565834700, 254240852111995433998200, 254380924935845471119800,
  254391148295067621829300, 254420704422869786786500, 254431009665631509840200, 254470974834962083018500, 254511258156296488640200,
  254530969119120699023600, 254540974834962083018500, 254621188841578432645600, 254631119526860376651100, 254660804896347173314600,
  254750827749787168223200, 254800873141536317634200, 254840889268351077246600, 254900928572609888207300, 254961078980349565834700,
  254970953704052716298000, 254990840717569499076400, 255041038433838755018200, 255050722027079917697600, 255060908505540341992200,
  255090721092493675873850, 255120857422977965393000, 255130921426713489992700, 255270953704052716298000, 255360969119120699023600,
  255450940350913453845600, 255510847068910071309000, 255520772953270096678400, 255540936268714001820000, 255620659762668419921100,
  255630704422869786786500, 255811258156296488640200, 255820958583069133241000, 255881119526860376651100, 255971078980349565834700,
  256050936268714001820000, 256131148295067621829300, 256201038433838755018200, 256220729835923614841300, 256231009665631509840200,
  256441009665631509840200, 256451148295067621829300, 256540894397680516001600, 256580894397680516001600, 256681097212505245230000,
  256700958583069133241000, 256710729835923614841300, 256881097212505245230000, 257031188841578432645600, 257051188841578432645600,
  257200741677699096288700, 257360924935845471119800, 257461063565281583108800, 257470911582706208667500, 257580940350913453845600,
  257650958583069133241000, 257711258156296488640200, 257731258156296488640200, 257780974834962083018500, 257870994250563527114300,
  257880882036284919284000, 257930780243947177487200, 257990812721566863289400, 258020918036558322424600, 258051018366769208803100,
  258061258156296488640200, 258100905520244027024000, 258121188841578432645600, 258180974834962083018500, 258220868974266677577500,
  258240932346642686492000, 258300843842823849486800, 258420953704052716298000, 258500958583069133241000, 258510868974266677577500,
  258541078980349565834700, 258741188841578432645600, 258800813891170839608500, 258840894397680516001600, 258851097212505245230000,
  258901188841578432645600, 258980936268714001820000, 259001078980349565834700, 259030765430927972919700, 259100737207681204498000,
  259120908505540341992200, 259130879737333096814000, 259150826407485135009200, 259180713482559322009200, 259191050212142320656600,
  259250795659015160213000, 259280958583069133241000, 259320743989940838374150, 259370781087834042073700, 259430674968048760288500,
  259450855621127415125200, 259491188841578432645600, 259540855621127415125200, 259550790873413042449500, 259580980897424264662000,
  259640949052051152808600, 259680843842823849486800, 259700918036558322424600, 259720864973733216207600, 259730743989940838374150,
  259750889268351077246600, 259760843842823849486800, 259910683855977707691900, 260010932346642686492000, 260070834745646028914100]

def emitM15_3 : List Nat := [
  260090811565484623181800, 260150894397680516001600, 260200894397680516001600, 260210980897424264662000, 260230949052051152808600,
  260250873141536317634200, 260280873141536317634200, 260290697944414400670100, 260310859257891832212700, 260320747561749098582100,
  260390697944414400670100, 260410647454007714414700, 260441188841578432645600, 260450825082962460007000, 260490770636564168525000,
  260521119526860376651100, 260590882036284919284000, 260701050212142320656600, 260710720166561134594200, 260800388288189742478670,
  260820748781276407963950, 260850619468364552375700, 260860794683397665676600, 260870908505540341992200, 260890899804402643029100,
  260960969119120699023600, 261020624650871338834300, 261030924935845471119800, 261140936268714001820000, 261240944606874895725200,
  261260642035564319132500, 261270801721477341856600, 261310655811537192536900, 261320911582706208667500, 261430781087834042073700,
  261440958583069133241000, 261490761871833462649400, 261510897064505224217800, 261570859257891832212700, 261590671226605175262700,
  261740864973733216207600, 261780624650871338834300, 261790834745646028914100, 261851258156296488640200, 261871258156296488640200,
  261911097212505245230000, 261940980897424264662000, 261970808175329455613700, 262020864973733216207600, 262141027897787189235500,
  262161001661360742486400, 262230793717206574502800, 262340796644244804514200, 262470932346642686492000, 262480808175329455613700,
  262571188841578432645600, 262620918036558322424600, 262630779407122210435500, 262740974834962083018500, 262860853851169705185000,
  262920756428312807147700, 263331258156296488640200, 263360924935845471119800, 263480980897424264662000, 263521188841578432645600,
  263540782797277378003600, 263551258156296488640200, 263560737755627780960600, 263600783663083652315200, 263611027897787189235500,
  263641188841578432645600, 263660848721840266430000, 263710774528105793492300, 263760744576452783614000, 263770482152228400602100,
  263790899804402643029100, 263810816272235708980400, 263880823775754303271800, 263910969119120699023600, 263950684822168798865600,
  263970669824057639812200, 263990816272235708980400, 264080740541323231257200, 264100587837485164553900, 264110852111995433998200,
  264120684177005270716700, 264150980897424264662000, 264171097212505245230000, 264200994250563527114300, 264260648348868272016200,
  264291258156296488640200, 264320796644244804514200, 264340833306772283704200, 264350745759898548314200, 264460944606874895725200,
  264471097212505245230000, 264480958583069133241000, 264601063565281583108800, 264650778577241928966050, 264690599263648735288300,
  264721009665631509840200, 264801078980349565834700, 264810790873413042449500, 264851258156296488640200, 264950840717569499076400,
  264970731370480582307400, 265050855621127415125200, 265121258156296488640200, 265170857422977965393000, 265190932346642686492000,
  265220921426713489992700, 265240879737333096814000, 265250720166561134594200, 265301258156296488640200, 265380770636564168525000,
  265430902621490339698700, 265500928572609888207300, 265511097212505245230000, 265800802768607328586000, 265971038433838755018200,
  266070963712398571996200, 266091078980349565834700, 266110902621490339698700, 266120963712398571996200, 266311027897787189235500,
  266321027897787189235500, 266330918036558322424600, 266350994250563527114300, 266410788108259909398500, 266471148295067621829300,
  266650797639277889831000, 266660958583069133241000, 266790940350913453845600, 266810716102796561411600, 266840859257891832212700,
  266881148295067621829300, 266910868974266677577500, 266960830489684587034600, 267050845442857984131000, 267250980897424264662000,
  267530773737587842781000, 267570905520244027024000, 267810778577241928966050, 267900795659015160213000, 268200861127105133428000,
  268270745166424996332800, 268291018366769208803100, 268341078980349565834700, 268470994250563527114300, 268551027897787189235500,
  268620868974266677577500, 268650859257891832212700, 268741038433838755018200, 269541009665631509840200, 269700827749787168223200,
  269890840717569499076400, 269970731370480582307400, 270040803826818261639700, 270100882036284919284000, 270360987351276378419100,
  270481188841578432645600, 270531258156296488640200, 270540847068910071309000, 270731258156296488640200, 270821258156296488640200,
  270841258156296488640200, 270850770636564168525000, 271380667620111683183100, 271550803826818261639700, 271611027897787189235500,
  271661258156296488640200, 271690699057598437554400, 271710940350913453845600, 271780708030475434167400, 271920994250563527114300,
  271930788108259909398500, 271971188841578432645600, 272110980897424264662000, 272310648348868272016200, 272430708030475434167400,
  272800963712398571996200, 273550918036558322424600, 274020745759898548314200, 274241009665631509840200, 274250879737333096814000,
  274260767628818644797200, 274270826407485135009200, 274420617633450685556000, 274500809292659515426200, 274680839190822285997700,
  274890767628818644797200, 274900859257891832212700, 274910608780912503471500, 274920649934405450995540, 274930709262523872971500,
  274940763992054227709700, 274950953704052716298000, 274981148295067621829300, 275060958583069133241000, 275110836205525971029400,
  275120700940893270863700, 275130987351276378419100, 275150576921787070892300, 275230940350913453845600, 275241038433838755018200,
  275291078980349565834700, 275310757761665894094300, 275331188841578432645600, 275440757761665894094300, 275780796644244804514200,
  275841148295067621829300, 275851148295067621829300, 275861258156296488640200, 275951001661360742486400, 275971258156296488640200,
  276020924935845471119800, 276031188841578432645600, 276040751265876266617000, 276050769876104230003000, 276061038433838755018200,
  276110757761665894094300, 276270837687034549543500, 276650658262640293971800, 276680557849750609993900, 276830557849750609993900,
  277000621509251715496400, 277040994250563527114300, 277130953704052716298000, 277140663876358975970100, 277191188841578432645600,
  277210969119120699023600, 277351038433838755018200, 277430723445543416893200, 277441018366769208803100, 277450795659015160213000,
  277480932346642686492000, 277540905520244027024000, 277690785417514617406100, 277700918036558322424600, 277791258156296488640200,
  277840772953270096678400, 277850772953270096678400, 277881119526860376651100, 277921188841578432645600, 277940745759898548314200,
  277950884389334660303400, 278010859257891832212700, 278030908505540341992200, 278070924935845471119800, 278090745759898548314200,
  278130897064505224217800, 278150884389334660303400, 278270803826818261639700, 278320727825805682732600, 278330850402552098068100,
  278350794683397665676600, 278371258156296488640200, 278380866953995945825500, 278410845442857984131000, 278440818711381021396400,
  278490936268714001820000, 278501258156296488640200, 278610709262523872971500, 278631258156296488640200, 278730924935845471119800,
  278740698314100588802700, 278750949052051152808600, 278770884389334660303400, 278800663092041229867500, 278820821211511241938000,
  278880789943173776218200, 278891050212142320656600, 278990949052051152808600, 279000940350913453845600, 279010994250563527114300,
  279051119526860376651100, 279150699806665610470300, 279220902621490339698700, 279271119526860376651100, 279340891800131875675500,
  279410775324922758410000, 279450818711381021396400, 279461097212505245230000, 279580785417514617406100, 279630754461036247277200,
  279660994250563527114300, 279690616483068237407600, 279710944606874895725200, 279730936268714001820000, 279741063565281583108800,
  279750889268351077246600, 279781038433838755018200, 279790987351276378419100, 279820738860611399619100, 279851119526860376651100,
  279871078980349565834700, 280090724884417162103200, 280100781087834042073700, 280140963712398571996200, 280230726344297104218500,
  280250944606874895725200, 280340766890807915034900, 280400801721477341856600, 280410963712398571996200, 280440928572609888207300,
  280460877490047511608200, 280530857422977965393000, 280590879737333096814000, 280670963712398571996200, 280681148295067621829300,
  280720802768607328586000, 280790877490047511608200, 280821063565281583108800, 281020963712398571996200, 281070821211511241938000,
  281131027897787189235500, 281141097212505245230000, 281201188841578432645600, 281220821211511241938000, 281290761174966531040100,
  281360886799089818209300, 281390840717569499076400, 281450662055762526312800, 281490974834962083018500, 281510847068910071309000,
  281540936268714001820000, 281550775324922758410000, 281650754461036247277200, 281700974834962083018500, 281760833306772283704200,
  281801050212142320656600, 281850963712398571996200, 281870829110352373801000, 281920836205525971029400, 281930969119120699023600,
  282011078980349565834700, 282040987351276378419100, 282051001661360742486400, 282121027897787189235500, 282160891800131875675500,
  282181038433838755018200, 282221119526860376651100, 282380987351276378419100, 282460921426713489992700, 282630928572609888207300,
  282710932346642686492000, 283040714784096133216200, 283101258156296488640200, 283161258156296488640200, 283170924935845471119800,
  283311078980349565834700, 283351097212505245230000, 283560884389334660303400, 283570842267988152673000, 283641148295067621829300,
  283690969119120699023600, 283720789021508265725750, 283780873141536317634200, 283820821211511241938000, 283850681012184175638500,
  283890834745646028914100, 283990821211511241938000, 284041063565281583108800, 284140873141536317634200, 284150681012184175638500,
  284171050212142320656600, 284181258156296488640200, 284221050212142320656600, 284310980897424264662000, 284350805977438783736100,
  284500969119120699023600, 284660802768607328586000, 284720833306772283704200, 284791063565281583108800, 284970940350913453845600,
  285001119526860376651100, 285071188841578432645600, 285081188841578432645600, 285180963712398571996200, 285250928572609888207300,
  285260889268351077246600, 285381097212505245230000, 285500889268351077246600, 285580866953995945825500, 285720873141536317634200,
  285800994250563527114300, 286080763992054227709700, 286091038433838755018200, 286111078980349565834700, 286390738860611399619100,
  286410894397680516001600, 286440879737333096814000, 286510834745646028914100, 286810949052051152808600, 286981119526860376651100,
  287010897064505224217800, 287070969119120699023600, 287340873141536317634200, 287480987351276378419100, 287530902621490339698700]

def emitM15_4 : List Nat := [
  287790598578245092509000, 287810842267988152673000, 287830782797277378003600, 287840805977438783736100, 287890840717569499076400,
  287960974834962083018500, 287970766890807915034900, 287980766890807915034900, 287990902621490339698700, 288090963712398571996200,
  288140902621490339698700, 288250843842823849486800, 288441258156296488640200, 288460969119120699023600, 288470831888308784508500,
  288511148295067621829300, 288570768372316493549000, 288580485402785441095300, 288601027897787189235500, 288650974834962083018500,
  288660762573590728514100, 288720742827137038862250, 288790815074616604308800, 288910969119120699023600, 288950776937860951398400,
  289020852111995433998200, 289030850402552098068100, 289090831888308784508500, 289211188841578432645600, 289370899804402643029100,
  289490830489684587034600, 289610388288189742478670, 289661258156296488640200, 289760974834962083018500, 289820509494965174644700,
  290011027897787189235500, 290170776937860951398400, 290221097212505245230000, 290290830489684587034600, 290310850402552098068100,
  290330852111995433998200, 290381119526860376651100, 290660987351276378419100, 290810840717569499076400, 290870750638914965257400,
  290880940350913453845600, 291050831888308784508500, 291280782797277378003600, 291380850402552098068100, 291410944606874895725200,
  291510837687034549543500, 291571001661360742486400, 291580902621490339698700, 291650969119120699023600, 291970974834962083018500,
  292000963712398571996200, 292110762573590728514100, 292290795659015160213000, 292331018366769208803100, 292381001661360742486400,
  292460797639277889831000, 292540848721840266430000, 292550836205525971029400, 292611258156296488640200, 292721258156296488640200,
  292730672077674142053550, 292750776128139928136500, 292820980897424264662000, 292890791812387077433400, 293010863031924630497500,
  293050894397680516001600, 293060928572609888207300, 293090863031924630497500, 293121027897787189235500, 293221148295067621829300,
  293461148295067621829300, 293510928572609888207300, 293560834745646028914100, 293590879737333096814000, 293690782797277378003600,
  293780897064505224217800, 293840866953995945825500, 293920894397680516001600, 293990782797277378003600, 294080905520244027024000,
  294200655328444465570300, 294221148295067621829300, 294251188841578432645600, 294321038433838755018200, 294360794683397665676600,
  294370866953995945825500, 294541148295067621829300, 294670800685198638301900, 294681119526860376651100, 294821097212505245230000,
  294831097212505245230000, 294860963712398571996200, 294921018366769208803100, 294940782797277378003600, 295031001661360742486400,
  295081188841578432645600, 295091148295067621829300, 295361018366769208803100, 295440655328444465570300, 295540834745646028914100,
  295571148295067621829300, 295600875292156839730700, 295630963712398571996200, 295720921426713489992700, 295751188841578432645600,
  295770732928953683977200, 295790830489684587034600, 296090879737333096814000, 296151258156296488640200, 296161063565281583108800,
  296180850402552098068100, 296421258156296488640200, 296450944606874895725200, 296490905520244027024000, 296640969119120699023600,
  296941063565281583108800, 297010840717569499076400, 297020690139035586933400, 297301258156296488640200, 297381188841578432645600,
  297481188841578432645600, 297561050212142320656600, 297881188841578432645600, 297961097212505245230000, 298010932346642686492000,
  298070840717569499076400, 298141097212505245230000, 298541050212142320656600, 298630944606874895725200, 298721258156296488640200,
  298981050212142320656600, 299030905520244027024000, 299160882036284919284000, 299260810422615040819500, 299760704422869786786500,
  299780792760261472887800, 299800940350913453845600, 299830547741887189887400, 299920769876104230003000, 300001078980349565834700,
  300010600928042219239340, 300020859257891832212700, 300050886799089818209300, 300070879737333096814000, 300110774528105793492300,
  300210974834962083018500, 300310815074616604308800, 300410886799089818209300, 300441188841578432645600, 300500769876104230003000,
  300530884389334660303400, 300580879737333096814000, 300590774528105793492300, 300640735581629117320000, 300681258156296488640200,
  300700609845561342920300, 300721188841578432645600, 300860918036558322424600, 300871258156296488640200, 300900980897424264662000,
  300950902621490339698700, 300970855621127415125200, 301051148295067621829300, 301171063565281583108800, 301260877490047511608200,
  301271097212505245230000, 301300773737587842781000, 301400963712398571996200, 301420772175056052472900, 301490756428312807147700,
  301510958583069133241000, 301521119526860376651100, 301571038433838755018200, 301710723445543416893200, 301960969119120699023600,
  302010899804402643029100, 302020899804402643029100, 302191097212505245230000, 302410877490047511608200, 302460918036558322424600,
  302600914757576040125500, 303201119526860376651100, 303310823775754303271800, 303320665197382149650700, 303330739977941459431700,
  303340592741044470318300, 303381001661360742486400, 303400884389334660303400, 303420695754545869906300, 303430809292659515426200,
  303531001661360742486400, 303550974834962083018500, 303621001661360742486400, 303820850402552098068100, 303851188841578432645600,
  303941188841578432645600, 304060974834962083018500, 304081050212142320656600, 304100763280307450823300, 304141018366769208803100,
  304160969119120699023600, 304201038433838755018200, 304220726344297104218500, 304230905520244027024000, 304240819953633021252000,
  304270884389334660303400, 304280905520244027024000, 304311119526860376651100, 304330619974694748030300, 304360819953633021252000,
  304420718340026336864850, 304460567280818557118050, 304520648573840245417700, 304560509382920344995700, 304601009665631509840200,
  304650850402552098068100, 304720845442857984131000, 304730659260154799653800, 304750886799089818209300, 304950716991691303136100,
  305011050212142320656600, 305021050212142320656600, 305040924935845471119800, 305051119526860376651100, 305180871036195397851100,
  305191027897787189235500, 305200974834962083018500, 305240632965908172051250, 305260682899032606076900, 305280803826818261639700,
  305291148295067621829300, 305561148295067621829300, 305660921426713489992700, 305681188841578432645600, 305851078980349565834700,
  305890863031924630497500, 305971258156296488640200, 306060877490047511608200, 306090882036284919284000, 306101148295067621829300,
  306221148295067621829300, 306330702860337996478400, 306340713914525436460800, 306360928572609888207300, 306510889268351077246600,
  306820702860337996478400, 306830842267988152673000, 306900902621490339698700, 306930550237857027673400, 306971258156296488640200,
  307010855621127415125200, 307070727329526748519700, 307220980897424264662000, 307331188841578432645600, 307420963712398571996200,
  307570861127105133428000, 307650974834962083018500, 307720677642799596991300, 308280928572609888207300, 308600969119120699023600,
  308610944606874895725200, 308620758435069112228600, 308651018366769208803100, 308711078980349565834700, 308870808175329455613700,
  309170826407485135009200, 309220847068910071309000, 309231258156296488640200, 309281018366769208803100, 309380963712398571996200,
  309520873141536317634200, 310010944606874895725200, 310340882036284919284000, 310360786306409359130700, 310620902621490339698700,
  310671001661360742486400, 310700601068000254681700, 310710825082962460007000, 310770886799089818209300, 310960772953270096678400,
  311050861127105133428000, 311170772953270096678400, 311190877490047511608200, 311500786306409359130700, 311630667892963148503500,
  311650825082962460007000, 311680944606874895725200, 311690732928953683977200, 311771258156296488640200, 311790795659015160213000,
  311811097212505245230000, 311850905520244027024000, 311861009665631509840200, 312031018366769208803100, 312061097212505245230000,
  312150737755627780960600, 312160833306772283704200, 312270861127105133428000, 312291148295067621829300, 312320987351276378419100,
  312341188841578432645600, 312430924935845471119800, 312640963712398571996200, 312781097212505245230000, 312810833306772283704200,
  312830928572609888207300, 312930891800131875675500, 313090737755627780960600, 313100760482922246582700, 313301148295067621829300,
  313370928572609888207300, 313480863031924630497500, 313500940350913453845600, 313510786306409359130700, 313540681012184175638500,
  313590932346642686492000, 313610764708903175570900, 313630840717569499076400, 313730868974266677577500, 313811027897787189235500,
  313830974834962083018500, 313891258156296488640200, 313921119526860376651100, 313971038433838755018200, 313981078980349565834700,
  314011258156296488640200, 314060786306409359130700, 314181038433838755018200, 314290868974266677577500, 314311078980349565834700,
  314340840717569499076400, 314350606685027401387200, 314460839190822285997700, 314541188841578432645600, 314551063565281583108800,
  314560928572609888207300, 314610940350913453845600, 314690891800131875675500, 314710994250563527114300, 314781188841578432645600,
  314810850402552098068100, 314851148295067621829300, 314870812721566863289400, 315031258156296488640200, 315050670102997848570150,
  315080819953633021252000, 315260932346642686492000, 315321119526860376651100, 315580819953633021252000, 315611009665631509840200,
  315630936268714001820000, 315720963712398571996200, 315741050212142320656600, 315791148295067621829300, 316090784536451649190600,
  316160831888308784508500, 316371148295067621829300, 316390894397680516001600, 316490928572609888207300, 316610843842823849486800,
  316650921426713489992700, 316800897064505224217800, 316870834745646028914100, 317211148295067621829300, 317290918036558322424600,
  317770831888308784508500, 317990963712398571996200, 318060897064505224217800, 318070980897424264662000, 318090905520244027024000,
  318200784536451649190600, 318390905520244027024000, 318520918036558322424600, 318580739417715904564700, 318590782797277378003600,
  318670839190822285997700, 318811009665631509840200, 318951258156296488640200, 319090949052051152808600, 319180940350913453845600,
  319211078980349565834700, 319340668440909724966000, 319460794683397665676600, 319581258156296488640200, 319681027897787189235500,
  319750940350913453845600, 319950994250563527114300, 320021009665631509840200, 320040736120713980807650, 320050764708903175570900,
  320111258156296488640200, 320130877490047511608200, 320191050212142320656600, 320200921426713489992700, 320250807070345836955200]

def emitM15_5 : List Nat := [
  320260918036558322424600, 320270711773115986079100, 320320969119120699023600, 320340908505540341992200, 320391148295067621829300,
  320430921426713489992700, 320470833306772283704200, 320480753813784796715500, 320571148295067621829300, 320660781087834042073700,
  320800656296975039016700, 320850727825805682732600, 320931001661360742486400, 320970905520244027024000, 321020793717206574502800,
  321130891800131875675500, 321140657029579048223900, 321470645033647540326100, 321560759795634317806550, 321600902621490339698700,
  321620784536451649190600, 321730884389334660303400, 321770936268714001820000, 321780818711381021396400, 321841097212505245230000,
  321871188841578432645600, 321890803826818261639700, 321910914757576040125500, 322021148295067621829300, 322101050212142320656600,
  322160969119120699023600, 322181050212142320656600, 322270823775754303271800, 322321258156296488640200, 322330908505540341992200,
  322391038433838755018200, 322440813891170839608500, 322831258156296488640200, 322870958583069133241000, 322990987351276378419100,
  323020859257891832212700, 323050875292156839730700, 323110918036558322424600, 323130905520244027024000, 323210782797277378003600,
  323400921426713489992700, 323460798644311475181100, 323501119526860376651100, 323530969119120699023600, 323620879737333096814000,
  323651050212142320656600, 323770785417514617406100, 323800842267988152673000, 323810805977438783736100, 323960732928953683977200,
  323990969119120699023600, 324180764708903175570900, 324191009665631509840200, 324220736120713980807650, 324230918036558322424600,
  324281038433838755018200, 324310921426713489992700, 324340936268714001820000, 324350877490047511608200, 324370875292156839730700,
  324381097212505245230000, 324390711773115986079100, 324400807070345836955200, 324411258156296488640200, 324461050212142320656600,
  324471050212142320656600, 324510813891170839608500, 324540753813784796715500, 324550921426713489992700, 324560781087834042073700,
  324611148295067621829300, 324620785417514617406100, 324630645033647540326100, 324670656296975039016700, 324681001661360742486400,
  324691119526860376651100, 324720879737333096814000, 324730793717206574502800, 324760905520244027024000, 324770727825805682732600,
  324790891800131875675500, 324830969119120699023600, 324870842267988152673000, 324901050212142320656600, 324930732928953683977200,
  324960803826818261639700, 325000884389334660303400, 325010914757576040125500, 325040784536451649190600, 325080759795634317806550,
  325091188841578432645600, 325110902621490339698700, 325160969119120699023600, 325310908505540341992200, 325330918036558322424600,
  325341258156296488640200, 325360823775754303271800, 325381258156296488640200, 325390958583069133241000, 325410987351276378419100,
  325440969119120699023600, 325480805977438783736100, 325490905520244027024000, 325530859257891832212700, 325570798644311475181100,
  325601188841578432645600, 325700855621127415125200, 325731188841578432645600, 325930818711381021396400, 325960857422977965393000,
  325970908505540341992200, 325990720628455720223650, 326020902621490339698700, 326091258156296488640200, 326100852111995433998200,
  326180974834962083018500, 326220680391064166374450, 326240902621490339698700, 326290884389334660303400, 326310852111995433998200,
  326450720628455720223650, 326500908505540341992200, 326540798644311475181100, 326700843842823849486800, 326731258156296488640200,
  326760750015859990193900, 326801258156296488640200, 326810708439473959320000, 326971097212505245230000, 327010928572609888207300,
  327050891800131875675500, 327090958583069133241000, 327221148295067621829300, 327361063565281583108800, 327450944606874895725200,
  327630839190822285997700, 327640656540580518804800, 327680949052051152808600, 327690676148003453403900, 327711050212142320656600,
  327730758435069112228600, 327791097212505245230000, 327800404221696882903100, 327840980897424264662000, 327890783663083652315200,
  327911188841578432645600, 328190698685158528456300, 328240813891170839608500, 328270886799089818209300, 328310742250766567187300,
  328420821211511241938000, 328430891800131875675500, 328440848721840266430000, 328520932346642686492000, 328541009665631509840200,
  328580958583069133241000, 328620704029941972797500, 328740864973733216207600, 328790932346642686492000, 328800864973733216207600,
  328811097212505245230000, 328820560521489443865300, 328830813891170839608500, 328870848721840266430000, 328930694677336171715200,
  328940891800131875675500, 329021258156296488640200, 329050724884417162103200, 329080940350913453845600, 329180974834962083018500,
  329201258156296488640200, 329221097212505245230000, 329250928572609888207300, 329280807070345836955200, 329301097212505245230000,
  329321009665631509840200, 329330877490047511608200, 329370940350913453845600, 329461038433838755018200, 329541063565281583108800,
  329591050212142320656600, 329611078980349565834700, 329660769121383666464700, 329720797639277889831000, 329740879737333096814000,
  329821050212142320656600, 329880680391064166374450, 329891148295067621829300, 329930980897424264662000, 330030914757576040125500,
  330141001661360742486400, 330160845442857984131000, 330210646346576684505350, 330260882036284919284000, 330291078980349565834700,
  330301018366769208803100, 330320826407485135009200, 330330826407485135009200, 330341188841578432645600, 330390830489684587034600,
  330401188841578432645600, 330410769121383666464700, 330500724402488518508300, 330510914757576040125500, 330670831888308784508500,
  330730831888308784508500, 330800932346642686492000, 330981063565281583108800, 330991009665631509840200, 331040994250563527114300,
  331050914757576040125500, 331080811565484623181800, 331251027897787189235500, 331260769121383666464700, 331311050212142320656600,
  331390724402488518508300, 331440807070345836955200, 331450769876104230003000, 331500755112504349396600, 331621078980349565834700,
  331670911582706208667500, 331781009665631509840200, 331800924935845471119800, 331811018366769208803100, 331841001661360742486400,
  332130769121383666464700, 332180826407485135009200, 332250932346642686492000, 332291188841578432645600, 332401063565281583108800,
  332470830489684587034600, 332510974834962083018500, 332530866953995945825500, 332551188841578432645600, 332560692557115406654860,
  332580491768570618293000, 332610963712398571996200, 332670712197745074224300, 332680693611606724316400, 332750987351276378419100,
  332781119526860376651100, 332870749396662965401700, 332880722497669021438900, 332890682899032606076900, 332900908505540341992200,
  332920974834962083018500, 332931027897787189235500, 333100736662720727741600, 333110866953995945825500, 333240800685198638301900,
  333361188841578432645600, 333370802768607328586000, 333910826407485135009200, 333920963712398571996200, 333930963712398571996200,
  333940666266911061325500, 333950914757576040125500, 333990914757576040125500, 334021063565281583108800, 334061009665631509840200,
  334100897064505224217800, 334260877490047511608200, 334331018366769208803100, 334371097212505245230000, 334461119526860376651100,
  334570588206262472472400, 334590928572609888207300, 334640969119120699023600, 334850871036195397851100, 334951038433838755018200,
  335021001661360742486400, 335030863031924630497500, 335090616974469717650500, 335100660267719998528000, 335210899804402643029100,
  335410902621490339698700, 335751050212142320656600, 335791038433838755018200, 335861148295067621829300, 335900994250563527114300,
  335930936268714001820000, 336060924935845471119800, 336090703638552040683900, 336100924935845471119800, 336151009665631509840200,
  336180766890807915034900, 336281188841578432645600, 336311038433838755018200, 336330718340026336864850, 336350847068910071309000,
  336430994250563527114300, 336471078980349565834700, 336740911582706208667500, 336960897064505224217800, 337041258156296488640200,
  337070707217462825842400, 337190834745646028914100, 337210932346642686492000, 337221188841578432645600, 337330980897424264662000,
  337701258156296488640200, 337750761174966531040100, 337781097212505245230000, 338290837687034549543500, 338311078980349565834700,
  338360557034897753603400, 338530657520980528466900, 338650859257891832212700, 338790803826818261639700, 338991018366769208803100,
  339000891800131875675500, 339050886799089818209300, 339220791812387077433400, 339480940350913453845600, 339760899804402643029100,
  339800871036195397851100, 339880914757576040125500, 339931258156296488640200, 339950726344297104218500, 340011258156296488640200,
  340131078980349565834700, 340280932346642686492000, 340451188841578432645600, 340850886799089818209300, 340921258156296488640200,
  340930994250563527114300, 341071050212142320656600, 341080940350913453845600, 341090875292156839730700, 341571078980349565834700,
  341800796644244804514200, 341841038433838755018200, 342180889268351077246600, 342531078980349565834700, 342550905520244027024000,
  342691063565281583108800, 342760940350913453845600, 342771078980349565834700, 342970940350913453845600, 343101119526860376651100,
  343491258156296488640200, 343820675556285750595100, 343850918036558322424600, 343890769121383666464700, 343940704422869786786500,
  343950704422869786786500, 343980936268714001820000, 343990839190822285997700, 344070873141536317634200, 344110974834962083018500,
  344250944606874895725200, 344291078980349565834700, 344331063565281583108800, 344440980897424264662000, 345030766158203905827700,
  345071009665631509840200, 345420936268714001820000, 345581097212505245230000, 345621188841578432645600, 345630848721840266430000,
  345691078980349565834700, 345791001661360742486400, 345860884389334660303400, 345880911582706208667500, 346061119526860376651100,
  346330980897424264662000, 347010963712398571996200, 347841097212505245230000, 347960980897424264662000, 348020974834962083018500,
  348091063565281583108800, 348111063565281583108800, 348491119526860376651100, 348500819953633021252000, 348750936268714001820000,
  348800691860248475045600, 348920625006111499271000, 348930974834962083018500, 348990980897424264662000, 349001038433838755018200,
  349030744576452783614000, 349071097212505245230000, 349090739977941459431700, 349130918036558322424600, 349150758435069112228600,
  349170822485413819681000, 349200879737333096814000, 349231258156296488640200, 349261078980349565834700, 349281188841578432645600,
  349350808175329455613700, 349461188841578432645600, 349490963712398571996200, 349571018366769208803100, 349660875292156839730700]

def emitM15_6 : List Nat := [
  349741078980349565834700, 349871027897787189235500, 349890789021508265725750, 350091078980349565834700, 350101188841578432645600,
  350130798644311475181100, 350180963712398571996200, 350291009665631509840200, 350321188841578432645600, 350360822485413819681000,
  350370798644311475181100, 350410662831963059861700, 350480924935845471119800, 350640886799089818209300, 350651050212142320656600,
  350911097212505245230000, 350991188841578432645600, 351281188841578432645600, 351670805977438783736100, 351860789021508265725750,
  351990706010204702415500, 352010822485413819681000, 352060671793178928830400, 352110583868232909449900, 352150861127105133428000,
  352190958583069133241000, 352220722027079917697600, 352420786306409359130700, 352610891800131875675500, 352640722497669021438900,
  352650583868232909449900, 352660722497669021438900, 352680861127105133428000, 352690958583069133241000, 352700722027079917697600,
  352720891800131875675500, 352820866953995945825500, 352990756428312807147700, 353020633158772262691800, 353200633158772262691800,
  353280510452449256670500, 353360637498703816147400, 353380884389334660303400, 353420924935845471119800, 353551027897787189235500,
  353730707623142895403840, 353770914757576040125500, 353801119526860376651100, 354080866953995945825500, 354131009665631509840200,
  354220855621127415125200, 354300928572609888207300, 354331188841578432645600, 354370845442857984131000, 354410664931777743839100,
  354420894397680516001600, 354610891800131875675500, 354630928572609888207300, 354651009665631509840200, 354691148295067621829300,
  354750842267988152673000, 354770905520244027024000, 354860848721840266430000, 354880757761665894094300, 354911258156296488640200,
  354921148295067621829300, 354961097212505245230000, 354980649934405450995540, 355040924935845471119800, 355190827749787168223200,
  355221188841578432645600, 355241050212142320656600, 355270772175056052472900, 355310884389334660303400, 355420749396662965401700,
  355470963712398571996200, 355630944606874895725200, 355690911582706208667500, 355751038433838755018200, 355760914757576040125500,
  355821078980349565834700, 355840684822168798865600, 356091063565281583108800, 356111258156296488640200, 356130818711381021396400,
  356161018366769208803100, 356281018366769208803100, 356410782797277378003600, 356570969119120699023600, 356720737207681204498000,
  357091009665631509840200, 357121258156296488640200, 357220810422615040819500, 357301188841578432645600, 357450637498703816147400,
  357481148295067621829300, 357520924935845471119800, 357590884389334660303400, 357621258156296488640200, 357630911582706208667500,
  357680914757576040125500, 357691027897787189235500, 357700749396662965401700, 357731038433838755018200, 357740707623142895403840,
  357770969119120699023600, 357801009665631509840200, 357820737207681204498000, 357840866953995945825500, 357851119526860376651100,
  357890855621127415125200, 357970928572609888207300, 357991188841578432645600, 358020757761665894094300, 358030891800131875675500,
  358050664931777743839100, 358060905520244027024000, 358090845442857984131000, 358130894397680516001600, 358201258156296488640200,
  358210848721840266430000, 358231148295067621829300, 358261097212505245230000, 358280649934405450995540, 358310884389334660303400,
  358320914757576040125500, 358341078980349565834700, 358351258156296488640200, 358400963712398571996200, 358410924935845471119800,
  358430827749787168223200, 358441188841578432645600, 358461050212142320656600, 358480772175056052472900, 358510684822168798865600,
  358550944606874895725200, 358631188841578432645600, 358740818711381021396400, 358751018366769208803100, 358781063565281583108800,
  358800782797277378003600, 358841018366769208803100, 358950921426713489992700, 359100980897424264662000, 359180839190822285997700,
  359200918036558322424600, 359251148295067621829300, 359370958583069133241000, 359460902621490339698700, 359470803826818261639700,
  359481097212505245230000, 359611188841578432645600, 359800839190822285997700, 359871097212505245230000, 359971258156296488640200,
  359980918036558322424600, 360000804896347173314600, 360010768372316493549000, 360070875292156839730700, 360080932346642686492000,
  360100953704052716298000, 360110714348365596320600, 360121097212505245230000, 360200777754192015314500, 360220980897424264662000,
  360230843842823849486800, 360270871036195397851100, 360281009665631509840200, 360311188841578432645600, 360341027897787189235500,
  360420847068910071309000, 360510980897424264662000, 360601018366769208803100, 360621009665631509840200, 360660802768607328586000,
  360670845442857984131000, 360681050212142320656600, 360701119526860376651100, 360740921426713489992700, 360841001661360742486400,
  360931038433838755018200, 361150894397680516001600, 361180914757576040125500, 361251258156296488640200, 361260918036558322424600,
  361270804896347173314600, 361300768372316493549000, 361311097212505245230000, 361320802768607328586000, 361330674968048760288500,
  361350932346642686492000, 361360921426713489992700, 361380953704052716298000, 361390875292156839730700, 361400980897424264662000,
  361430714348365596320600, 361451050212142320656600, 361481009665631509840200, 361490777754192015314500, 361521188841578432645600,
  361530871036195397851100, 361560847068910071309000, 361621027897787189235500, 361630894397680516001600, 361711119526860376651100,
  361740914757576040125500, 361751009665631509840200, 361761018366769208803100, 361821001661360742486400, 361871038433838755018200,
  361961078980349565834700, 361980936268714001820000, 362030840717569499076400, 362080676445180492319700, 362120902621490339698700,
  362140924935845471119800, 362150615184348684726400, 362291258156296488640200, 362340871036195397851100, 362450924935845471119800,
  362590918036558322424600, 362750579823776428244100, 362910826407485135009200, 362990818711381021396400, 363021188841578432645600,
  363051119526860376651100, 363210813891170839608500, 363231148295067621829300, 363350759113037810766500, 363390847068910071309000,
  363670859257891832212700, 363821097212505245230000, 363940944606874895725200, 364050813891170839608500, 364131097212505245230000,
  364240811565484623181800, 364260958583069133241000, 364411188841578432645600, 364541001661360742486400, 364680812721566863289400,
  364700833306772283704200, 364870868974266677577500, 364930826407485135009200, 365230591587924710399300, 365240817484371762214800,
  365300994250563527114300, 365540756428312807147700, 365570654130825360898700, 365620924935845471119800, 365751027897787189235500,
  366170769121383666464700, 366260994250563527114300, 366280826407485135009200, 366290647009562538372300, 366370745166424996332800,
  366491063565281583108800, 366501009665631509840200, 366741258156296488640200, 366770949052051152808600, 366810667076632084587500,
  367030734512100205645300, 367051188841578432645600, 367100756428312807147700, 367130924935845471119800, 367160667076632084587500,
  367181009665631509840200, 367191027897787189235500, 367200734512100205645300, 367310647009562538372300, 367330769121383666464700,
  367400994250563527114300, 367410826407485135009200, 367441063565281583108800, 367450745166424996332800, 367561188841578432645600,
  367570949052051152808600, 367630796644244804514200, 367660791812387077433400, 367670834745646028914100, 367761001661360742486400,
  367810791812387077433400, 367840958583069133241000, 367850788108259909398500, 367861188841578432645600, 367930777754192015314500,
  367970936268714001820000, 367980788108259909398500, 368011188841578432645600, 368070685146318191282700, 368141078980349565834700,
  368160752531715953809300, 368170750638914965257400, 368200944606874895725200, 368240714348365596320600, 368270839190822285997700,
  368280713914525436460800, 368291097212505245230000, 368300710092404154441000, 368311148295067621829300, 368340833306772283704200,
  368411097212505245230000, 368420963712398571996200, 368550754461036247277200, 368570813891170839608500, 368610855621127415125200,
  368640769121383666464700, 368650882036284919284000, 368660840717569499076400, 368670855621127415125200, 368691018366769208803100,
  368700754461036247277200, 368791119526860376651100, 368800807070345836955200, 368840725368679609682050, 368900673512418982867700,
  368941001661360742486400, 368950807070345836955200, 368960823775754303271800, 368980787203276357406700, 368990710092404154441000,
  369130724402488518508300, 369140839190822285997700, 369200790873413042449500, 369240759795634317806550, 369260889268351077246600,
  369300994250563527114300, 369321258156296488640200, 369351038433838755018200, 369380891800131875675500, 369390752531715953809300,
  369410805977438783736100, 369420685146318191282700, 369431119526860376651100, 369440963712398571996200, 369470675851706940338300,
  369480788108259909398500, 369491097212505245230000, 369510802768607328586000, 369530812721566863289400, 369600713914525436460800,
  369630905520244027024000, 369650812721566863289400, 369690840717569499076400, 369740994250563527114300, 369781148295067621829300,
  369831188841578432645600, 369860802768607328586000, 369880936268714001820000, 369910843842823849486800, 369960714348365596320600,
  369991097212505245230000, 370020777754192015314500, 370271097212505245230000, 370301001661360742486400, 370340882036284919284000,
  370510848721840266430000, 370570812721566863289400, 370700897064505224217800, 370960889268351077246600, 371011009665631509840200,
  371121063565281583108800, 371171063565281583108800, 371290810422615040819500, 371451119526860376651100, 371680848721840266430000,
  371701063565281583108800, 371941001661360742486400, 371971119526860376651100, 372020794683397665676600, 372191027897787189235500,
  372330969119120699023600, 372401078980349565834700, 372551258156296488640200, 372570847068910071309000, 372641018366769208803100,
  372761018366769208803100, 372910940350913453845600, 372920969119120699023600, 373190722027079917697600, 373220794683397665676600,
  373230794683397665676600, 373240662831963059861700, 373250603048262984299650, 373260868974266677577500, 373270886799089818209300,
  373290737207681204498000, 373360771402851443081900, 373400866953995945825500, 373410793717206574502800, 373470932346642686492000,
  373651258156296488640200, 374060852111995433998200, 374281009665631509840200, 374920884389334660303400, 375040807070345836955200,
  375091258156296488640200, 375261038433838755018200, 375280853851169705185000, 375321038433838755018200, 375591119526860376651100]

def emitM15_7 : List Nat := [
  375860751265876266617000, 376101097212505245230000, 376241258156296488640200, 376361097212505245230000, 376481009665631509840200,
  376560899804402643029100, 376660815074616604308800, 376700857422977965393000, 376790825082962460007000, 377070953704052716298000,
  377820980897424264662000, 378480980897424264662000, 378570987351276378419100, 378601258156296488640200, 379120868974266677577500,
  379410811565484623181800, 379460980897424264662000, 379690884389334660303400, 379841188841578432645600, 380120801721477341856600,
  380130969119120699023600, 380150886799089818209300, 380240793717206574502800, 380250771402851443081900, 380350932346642686492000,
  380391258156296488640200, 380470868974266677577500, 380550852111995433998200, 380650815074616604308800, 380691188841578432645600,
  380750969119120699023600, 380810811565484623181800, 380831009665631509840200, 380841188841578432645600, 381070980897424264662000,
  381081258156296488640200, 381141038433838755018200, 381250853851169705185000, 381340807070345836955200, 381381097212505245230000,
  381441119526860376651100, 381450980897424264662000, 381490953704052716298000, 381550751265876266617000, 381690825082962460007000,
  381790801721477341856600, 381800899804402643029100, 381811009665631509840200, 381820857422977965393000, 381911258156296488640200,
  381970980897424264662000, 382101258156296488640200, 382360987351276378419100, 382630637902744769847900, 382710637902744769847900,
  382720685471521729920400, 382750897064505224217800, 382811001661360742486400, 382830649025308280870300, 382900843842823849486800,
  382910987351276378419100, 383071188841578432645600, 383120944606874895725200, 383171119526860376651100, 383460769121383666464700,
  383481148295067621829300, 383580936268714001820000, 383640737207681204498000, 383700834745646028914100, 383760685471521729920400,
  383780897064505224217800, 383811001661360742486400, 383820747561749098582100, 383830936268714001820000, 383860843842823849486800,
  383880987351276378419100, 383910864973733216207600, 383940944606874895725200, 383950704029941972797500, 383981119526860376651100,
  384011188841578432645600, 384111148295067621829300, 384171148295067621829300, 384200769121383666464700, 384501001661360742486400,
  384510819953633021252000, 384520897064505224217800, 384530837687034549543500, 384591027897787189235500, 384631119526860376651100,
  384680779407122210435500, 384690963712398571996200, 384700897064505224217800, 384711119526860376651100, 384720677642799596991300,
  384750921426713489992700, 384771148295067621829300, 384800980897424264662000, 384990837687034549543500, 385000807070345836955200,
  385050845442857984131000, 385120897064505224217800, 385150677642799596991300, 385181027897787189235500, 385190802768607328586000,
  385200897064505224217800, 385250819953633021252000, 385330902621490339698700, 385430797639277889831000, 385440759113037810766500,
  385480980897424264662000, 385530924935845471119800, 385550963712398571996200, 385561119526860376651100, 385680797639277889831000,
  385700845442857984131000, 385770759113037810766500, 385801119526860376651100, 385891148295067621829300, 385900596952193005330900,
  385920791812387077433400, 385931258156296488640200, 385960914757576040125500, 385981148295067621829300, 386031148295067621829300,
  386040899804402643029100, 386130845442857984131000, 386141078980349565834700, 386170809292659515426200, 386200833306772283704200,
  386220787203276357406700, 386260667892963148503500, 386270596952193005330900, 386320663092041229867500, 386340753813784796715500,
  386420640986236747548600, 386460859257891832212700, 386470785417514617406100, 386510886799089818209300, 386541063565281583108800,
  386571188841578432645600, 386600918036558322424600, 386620980897424264662000, 386630974834962083018500, 386690958583069133241000,
  386840944606874895725200, 386861018366769208803100, 386951063565281583108800, 387060720628455720223650, 387120958583069133241000,
  387130911582706208667500, 387171188841578432645600, 387280840717569499076400, 387380843842823849486800, 387391188841578432645600,
  387421188841578432645600, 387450847068910071309000, 387461188841578432645600, 387480847068910071309000, 387500682899032606076900,
  387521038433838755018200, 387530819953633021252000, 387540600509339583817700, 387610980897424264662000, 387721038433838755018200,
  388291038433838755018200, 388491188841578432645600, 388600980897424264662000, 388761188841578432645600, 388870980897424264662000,
  388921188841578432645600, 388990932346642686492000, 389011063565281583108800, 389071063565281583108800, 389140847068910071309000,
  389180845442857984131000, 389200868974266677577500, 389240879737333096814000, 389281018366769208803100, 389290884389334660303400,
  389310799659548621582950, 389351119526860376651100, 389360827749787168223200, 389570516278208213560800, 389691119526860376651100,
  389711009665631509840200, 389880823775754303271800, 389910705611002575461700, 390000788108259909398500, 390030875292156839730700,
  390060839190822285997700, 390150639535434098590700, 390191097212505245230000, 390230864973733216207600, 390300847068910071309000,
  390340845442857984131000, 390350868974266677577500, 390370884389334660303400, 390380639535434098590700, 390390799659548621582950,
  390420879737333096814000, 390441018366769208803100, 390460827749787168223200, 390471119526860376651100, 390571009665631509840200,
  390591119526860376651100, 390620760482922246582700, 390640823775754303271800, 390680705611002575461700, 390720875292156839730700,
  390761097212505245230000, 390800544190262892148200, 390870980897424264662000, 391080857422977965393000, 391180544190262892148200,
  391220980897424264662000, 391280857422977965393000, 391310677944458950933900, 391340677944458950933900, 391350753813784796715500,
  391380882036284919284000, 391510891800131875675500, 391540953704052716298000, 391561258156296488640200, 391650897064505224217800,
  391661001661360742486400, 391731078980349565834700, 391780798644311475181100, 391840940350913453845600, 391920735045434803181500,
  392141148295067621829300, 392441258156296488640200, 392690882036284919284000, 392770891800131875675500, 392780953704052716298000,
  392801001661360742486400, 392810897064505224217800, 392841258156296488640200, 392921078980349565834700, 393161258156296488640200,
  393180748781276407963950, 393210833306772283704200, 393400585652932271955900, 393411078980349565834700, 393421119526860376651100,
  393470847068910071309000, 393611188841578432645600, 393781119526860376651100, 393810847068910071309000, 393911258156296488640200,
  394050847068910071309000, 394381148295067621829300, 394460987351276378419100, 394720755112504349396600, 394890932346642686492000,
  394930843842823849486800, 395090994250563527114300, 395111001661360742486400, 395140606389169197412700, 395190877490047511608200,
  395221038433838755018200, 395241188841578432645600, 395251097212505245230000, 395301188841578432645600, 395320585652932271955900,
  395331078980349565834700, 395360847068910071309000, 395370843842823849486800, 395391188841578432645600, 395401038433838755018200,
  395431258156296488640200, 395451119526860376651100, 395500847068910071309000, 395540884389334660303400, 395560994250563527114300,
  395590847068910071309000, 395621188841578432645600, 395641001661360742486400, 395691148295067621829300, 395790987351276378419100,
  395800932346642686492000, 395880877490047511608200, 395891097212505245230000, 395911188841578432645600, 395920737207681204498000,
  396360749396662965401700, 396400594038079514581000, 396990994250563527114300, 397111258156296488640200, 397140994250563527114300,
  397170834745646028914100, 397211148295067621829300, 397290812721566863289400, 397390932346642686492000, 397400710929229121492700,
  397450833306772283704200, 397460710929229121492700, 397480873141536317634200, 397491027897787189235500, 397571027897787189235500,
  397590949052051152808600, 397640842267988152673000, 397700833306772283704200, 398540852111995433998200, 398731078980349565834700,
  399121188841578432645600, 399860914757576040125500, 400230873141536317634200, 400600833306772283704200, 400920852111995433998200,
  400961078980349565834700, 401201188841578432645600, 401400914757576040125500, 401580873141536317634200, 401650891800131875675500,
  401691258156296488640200, 401790894397680516001600, 401800852111995433998200, 401980980897424264662000, 402191188841578432645600,
  402321097212505245230000, 402510911582706208667500, 402851063565281583108800, 402881148295067621829300, 402891050212142320656600,
  403060949052051152808600, 403671188841578432645600, 403720905520244027024000, 403791258156296488640200, 404781119526860376651100,
  404790891800131875675500, 404801258156296488640200, 404810787203276357406700, 404830852111995433998200, 404890980897424264662000,
  404931097212505245230000, 404991188841578432645600, 405101119526860376651100, 405110911582706208667500, 405161148295067621829300,
  405171063565281583108800, 405211050212142320656600, 405220949052051152808600, 405361258156296488640200, 405480905520244027024000,
  405730969119120699023600, 405750936268714001820000, 405990779407122210435500, 406070936268714001820000, 406131018366769208803100,
  406141018366769208803100, 406350963712398571996200, 406430771402851443081900, 406440771402851443081900, 406570787203276357406700,
  406640739417715904564700, 406680924935845471119800, 406700768372316493549000, 406800940350913453845600, 406810974834962083018500,
  406950974834962083018500, 406991258156296488640200, 407180761174966531040100, 407230700561386174008500, 407360812721566863289400,
  407630863031924630497500, 407780742250766567187300, 407840742250766567187300, 407860873141536317634200, 408231119526860376651100,
  408310873141536317634200, 408441119526860376651100, 408450681951158210622500, 408570681951158210622500, 408601258156296488640200,
  408631258156296488640200]

def emitM16_0 : List Nat := [
  228230069314718055994530, 331450069314718055994530]

def emitM17_0 : List Nat := [
  199680481651102518315000, 199710982714631927940600, 199770478050058766011700, 199780757585452067291100, 199790481651102518315000,
  199810982714631927940600, 199870625761362279803550, 199961052029349983935100, 200040615084564737232900, 200060891085558740525000,
  200100702378593837287000, 200130356279612896239950, 200481052029349983935100, 200570982714631927940600, 201070857438335078403700,
  201080688270734011296500, 201140752456122628536000, 201160675909338414578800, 201220857438335078403700, 201260857438335078403700,
  201320268313384983767560, 201350522197613329131400, 201401052029349983935100, 201540497121741494413100, 201710812239822704098000,
  201950690937558719512600, 202250297068433468481900, 202411052029349983935100, 202470640941963566604000, 202480913399913871946000,
  202600795534414237781400, 202660781224329873714000, 203010844085195815951500, 203020563749157725298000, 203030788123617022409200,
  203071052029349983935100, 203580832306892250313100, 203790795534414237781400, 204190821770840684530600, 204450671363101006903100,
  204490857438335078403700, 204620812239822704098000, 204651052029349983935100, 204910702378593837287000, 205510757585452067291100,
  205720891085558740525000, 206050781224329873714000, 206480633063875781292500, 206630795534414237781400, 207780913399913871946000,
  207860633063875781292500, 207991052029349983935100, 208040742925104648103500, 208080715299766985287600, 208090832306892250313100,
  208130812239822704098000, 208181052029349983935100, 208370548334089742572100, 208390570810914446693300, 208400442446893740712600,
  208410615084564737232900, 208431052029349983935100, 208440715299766985287600, 208450726219696181786900, 208490521202580243814600,
  208520788123617022409200, 208530613826686516546900, 208591052029349983935100, 208601052029349983935100, 208640574117000672782100,
  208690570810914446693300, 208820781224329873714000, 208910803538685005135100, 208920647724223200480100, 209150832306892250313100,
  209610757585452067291100, 209860696494543834993700, 210190891085558740525000, 210211052029349983935100, 210401052029349983935100,
  210460718808898966414700, 210480942168121117124200, 211030534980950480119900, 211090891085558740525000, 211500762992174194318600,
  211520891085558740525000, 211530857438335078403700, 211611052029349983935100, 212090857438335078403700, 212200715299766985287600,
  212700470915250686265000, 212710494056367385312900, 213070982714631927940600, 213130982714631927940600, 213220891085558740525000,
  213270832306892250313100, 213320832306892250313100, 213330844085195815951500, 213350596641660823881000, 213380620280538630304100,
  213550982714631927940600, 213600913399913871946000, 213611052029349983935100, 213680982714631927940600, 214520857438335078403700,
  214530812239822704098000, 214570640941963566604000, 214620803538685005135100, 214750857438335078403700, 214760891085558740525000,
  214871052029349983935100, 214880757585452067291100, 214900738479928391020100, 214910708630629535420500, 214961052029349983935100,
  215120757585452067291100, 215180617648807798566700, 215920762992174194318600, 216970891085558740525000, 217290762992174194318600,
  218060781224329873714000, 218300393136702230583120, 219340844085195815951500, 222350688270734011296500, 222420812239822704098000,
  222531052029349983935100, 222690597699871756934700, 222830597699871756934700, 222901052029349983935100, 222960812239822704098000,
  223200166477265130244030, 223301052029349983935100, 223510781224329873714000, 224780458012224711891900, 225220812239822704098000,
  225801052029349983935100, 226860844085195815951500, 227500781224329873714000, 227880774770477759956900, 228060605438538118476700,
  228230678262388155598300, 228260514965547171168800, 228300795534414237781400, 228850768708015578313500, 228870768708015578313500,
  228990730141767497115000, 229960371235855613942500, 233760781224329873714000, 233980617648807798566700, 234160617648807798566700,
  234250812239822704098000, 234330762992174194318600, 234481052029349983935100, 234530942168121117124200, 234570521698859178027500,
  234580803538685005135100, 234590645985048929293100, 234780653130945327507600, 234810913399913871946000, 235190664909248893146000,
  235211052029349983935100, 235270812239822704098000, 235290521698859178027500, 235420942168121117124200, 235600625761362279803550,
  235670266707711168327900, 235690832306892250313100, 236160788123617022409200, 237030942168121117124200, 238310942168121117124200,
  240330832306892250313100, 240370585685440572728400, 240660857438335078403700, 240720788123617022409200, 241070788123617022409200,
  241100913399913871946000, 241200872853403061129600, 241490942168121117124200, 241710913399913871946000, 241780757585452067291100,
  241790891085558740525000, 241800821770840684530600, 241820891085558740525000, 241850757585452067291100, 241880982714631927940600,
  241911052029349983935100, 242200821770840684530600, 242911052029349983935100, 243140742925104648103500, 243690747577106211592750,
  243770812239822704098000, 243920812239822704098000, 244600617648807798566700, 245150803538685005135100, 246130702378593837287000,
  246350891085558740525000, 246941052029349983935100, 247390671363101006903100, 247731052029349983935100, 248011052029349983935100,
  251040599850492279031040, 251120844085195815951500, 251360844085195815951500, 251930607764224334903400, 252160738479928391020100,
  252370586633314968182700, 252961052029349983935100, 254420803538685005135100, 254900678262388155598300, 255090872853403061129600,
  255521052029349983935100, 255630803538685005135100, 255880588556451160971500, 258440607764224334903400, 259030552308122607523500,
  259100622983405869096000, 259130832306892250313100, 259181052029349983935100, 259190543888913485488800, 259370913399913871946000,
  259450699393297522318900, 259910844085195815951500, 260320577536137147610100, 260850942168121117124200, 260870913399913871946000,
  261060982714631927940600, 261260757585452067291100, 261490821770840684530600, 262020613826686516546900, 262340844085195815951500,
  262620774770477759956900, 264260781224329873714000, 264350942168121117124200, 264690832306892250313100, 264811052029349983935100,
  265190554355975741877700, 265240812239822704098000, 266310982714631927940600, 266801052029349983935100, 266960913399913871946000,
  268160600943399332250000, 268930426646468826387800, 271381052029349983935100, 271610982714631927940600, 272310781224329873714000,
  272980600943399332250000, 274020942168121117124200, 274930774770477759956900, 274940942168121117124200, 275311052029349983935100,
  275441052029349983935100, 276650644275605593363100, 277000942168121117124200, 277430891085558740525000, 277451052029349983935100,
  277700832306892250313100, 277940832306892250313100, 278090832306892250313100, 278270738479928391020100, 278331052029349983935100,
  278351052029349983935100, 278610660827049441120450, 278670640941963566604000, 279650872853403061129600, 279820832306892250313100,
  280230639315911479425900, 281420832306892250313100, 281800747577106211592750, 281960812239822704098000, 282010982714631927940600,
  282070812239822704098000, 282161052029349983935100, 282460738479928391020100, 282870913399913871946000, 283040982714631927940600,
  283310982714631927940600, 283900982714631927940600, 284170747577106211592750, 284310803538685005135100, 285950699393297522318900,
  286290913399913871946000, 286390832306892250313100, 287480795534414237781400, 287720982714631927940600, 287791052029349983935100,
  288951052029349983935100, 289090982714631927940600, 290171052029349983935100, 291050982714631927940600, 292380795534414237781400,
  292751052029349983935100, 292870521698859178027500, 292890844085195815951500, 293050673610386592108950, 296150690937558719512600,
  296160569197976253704900, 296940569197976253704900, 297020532179646857352500, 298720690937558719512600, 299760667014589812929250,
  299830603165713010721100, 299860522197613329131400, 299920844085195815951500, 300050653130945327507600, 300950774770477759956900,
  301490747577106211592750, 303320640941963566604000, 303340696494543834993700, 304170299411458649320500, 304350299411458649320500,
  304520872853403061129600, 304650795534414237781400, 305260640941963566604000, 307010495961186882382300, 307070435697869580471000,
  307190651296031460688000, 307400640941963566604000, 307760795534414237781400, 308280656904978125792400, 310140651296031460688000,
  310380757585452067291100, 311050942168121117124200, 311631052029349983935100, 311790730141767497115000, 311850506497238448164900,
  312370574960887537368600, 312460574960887537368600, 313500942168121117124200, 313540598769400668609500, 314591052029349983935100,
  316490535550752591583650, 317261052029349983935100, 318111052029349983935100, 319080913399913871946000, 319180872853403061129600,
  319250913399913871946000, 319340942168121117124200, 319750872853403061129600, 320000620280538630304100, 320050726219696181786900,
  320680584746466537744400, 320800734223966949140500, 321130982714631927940600, 321470660827049441120450, 323170891085558740525000,
  324180726219696181786900, 324260620280538630304100, 324520584746466537744400, 324630660827049441120450, 324670734223966949140500,
  324790982714631927940600, 326501052029349983935100, 326540577536137147610100, 326760795534414237781400, 327690673610386592108950,
  327710942168121117124200, 328430844085195815951500, 328440788123617022409200, 328520295917191030911300, 328620718808898966414700,
  328790295917191030911300, 328870788123617022409200, 328940844085195815951500, 329600633063875781292500, 329661052029349983935100,
  330810633063875781292500, 331330982714631927940600, 332131052029349983935100, 332880788123617022409200, 332900913399913871946000,
  333220832306892250313100, 334020982714631927940600, 335210669165210335025600, 336091052029349983935100, 338911052029349983935100,
  340130942168121117124200, 342530942168121117124200, 342690982714631927940600, 343890774770477759956900, 344111052029349983935100,
  347010560763861410329900, 348021052029349983935100, 348921052029349983935100, 349070982714631927940600, 349150803538685005135100,
  349870891085558740525000, 350090844085195815951500, 351990480656069432998100, 352010872853403061129600, 352220913399913871946000,
  352700913399913871946000, 352990656904978125792400, 353471052029349983935100, 353520942168121117124200, 354131052029349983935100,
  354880832306892250313100, 355190891085558740525000, 355271052029349983935100, 356110942168121117124200, 356570557865107723004600]

def emitM17_1 : List Nat := [
  357571052029349983935100, 357600942168121117124200, 357620942168121117124200, 357770557865107723004600, 357801052029349983935100,
  358020832306892250313100, 358430891085558740525000, 358481052029349983935100, 359470624362738082329600, 360010795534414237781400,
  360070913399913871946000, 360080644275605593363100, 360100664909248893146000, 360120857438335078403700, 360240624362738082329600,
  360310803538685005135100, 360390821770840684530600, 360771052029349983935100, 361300795534414237781400, 361310857438335078403700,
  361350644275605593363100, 361380664909248893146000, 361390913399913871946000, 361510624362738082329600, 361520803538685005135100,
  361640821770840684530600, 361721052029349983935100, 362750803538685005135100, 363000491817467895965000, 363350656904978125792400,
  365570803538685005135100, 366810942168121117124200, 367160942168121117124200, 367740762992174194318600, 367860647724223200480100,
  367930913399913871946000, 368160419057259431665400, 368270726219696181786900, 368300768708015578313500, 368670844085195815951500,
  368900774770477759956900, 368990768708015578313500, 369140726219696181786900, 369381052029349983935100, 369390419057259431665400,
  369470788123617022409200, 370020913399913871946000, 370380812239822704098000, 370961052029349983935100, 371090812239822704098000,
  371220747577106211592750, 371970942168121117124200, 372910982714631927940600, 373220891085558740525000, 373230891085558740525000,
  373250683141404572541400, 375040514965547171168800, 375590631560088044838400, 376700718808898966414700, 376790757585452067291100,
  379410891085558740525000, 380810891085558740525000, 381340514965547171168800, 381440631560088044838400, 381690757585452067291100,
  381820718808898966414700, 382630335634681549680370, 382710335634681549680370, 382810942168121117124200, 383810942168121117124200,
  383950718808898966414700, 384500844085195815951500, 384531052029349983935100, 384680715299766985287600, 384690844085195815951500,
  384700702378593837287000, 384770913399913871946000, 384980562994437161759700, 384991052029349983935100, 385200702378593837287000,
  385550844085195815951500, 385561052029349983935100, 385900982714631927940600, 386170857438335078403700, 386261052029349983935100,
  386270982714631927940600, 386510653130945327507600, 386631052029349983935100, 387380612584434516691200, 387500781224329873714000,
  387610982714631927940600, 389281052029349983935100, 390150872853403061129600, 390380872853403061129600, 390441052029349983935100,
  390800857438335078403700, 391180857438335078403700, 391781052029349983935100, 396361052029349983935100, 396400667014589812929250,
  397910588556451160971500, 398540812239822704098000, 400650588556451160971500, 400920812239822704098000, 406430982714631927940600,
  406440982714631927940600]

def emitM18_0 : List Nat := [
  200130040546510810816444, 375590109861228866810980, 381440109861228866810980]

def emitM20_0 : List Nat := [
  199680435206773825305600, 199691021938529261815500, 199711044252884393236500, 199750693098340510134400, 199760981392018450999000,
  199770633165497975905400, 199780575118096170322200, 199790531633520920183700, 199810301978163231482140, 199820885840873948255400,
  199850968875704155598400, 199870765443593515661800, 199880908798318112705400, 199900710586998340778000, 199940602973055059172900,
  199950908798318112705400, 199960797867560334219700, 199970922613351960787200, 200040787757948647082800, 200051252197038561220100,
  200060857072666703077400, 200070810312977781560300, 200100779458256689986050, 200130484503323979412050, 200161003706373582420100,
  200180934391655526425600, 200200934391655526425600, 200251113567602449231000, 200260527988802635523950, 200270672287773115167500,
  200291182882320505225600, 200300828786388101494000, 200351021938529261815500, 200370723370335491766500, 200400878430076732883300,
  200410952623811205821000, 200430456479306215272550, 200441044252884393236500, 200460714207303207174200, 200480705391024447707000,
  200561252197038561220100, 200610947744794788877700, 200630873778075169394000, 200650899560986099603900, 200700988291305599694200,
  200800839483600056710900, 200810763162125739044700, 200830905623448281247400, 200980763162125739044700, 201020689075860379083500,
  201041182882320505225600, 201050774284689250067200, 201070623411182545041700, 201080656096504598892800, 201100589525263636317650,
  201110745937535258523400, 201130833231564358577600, 201140568035490913460900, 201160827347514356284100, 201171021938529261815500,
  201291044252884393236500, 201320807931912912188500, 201331142335809694409000, 201340876077026991864000, 201350465256867303511200,
  201391073021091638414500, 201421252197038561220100, 201460795762219414436400, 201540492658310675822900, 201590938647616968305200,
  201600542029441399275800, 201611113567602449231000, 201650711479861415208250, 201700635865558157756000, 201710860994738018405500,
  201740790684986877094200, 201790988291305599694200, 201820885840873948255400, 201831113567602449231000, 201840827347514356284100,
  201851032474580827598100, 201950720385039176798400, 201960789699757232793000, 201970498560644720769000, 202021113567602449231000,
  202040893845144715609000, 202080995702102815066500, 202140727494631345171400, 202150459320406398550600, 202190930309456074400000,
  202210698858089688468100, 202250784914155115029500, 202341113567602449231000, 202390888438422588581600, 202410915467455562572700,
  202470700854163944721900, 202480860994738018405500, 202500522352528410405400, 202540801111087909535200, 202550834758311571656400,
  202560789699757232793000, 202601182882320505225600, 202660930309456074400000, 202720943092793225388500, 202781252197038561220100,
  202801142335809694409000, 202840896662232412278600, 203010775128576114653600, 203020934391655526425600, 203030842762582339010000,
  203070612837963166156900, 203090653551838032776300, 203130449384132618044150, 203150930309456074400000, 203160490617931357636800,
  203200844443294170648000, 203230758749645248150900, 203391073021091638414500, 203510981392018450999000, 203580627199514335271800,
  203601113567602449231000, 203630763162125739044700, 203790753836376390386500, 203811012407511281383000, 203841113567602449231000,
  204050995702102815066500, 204150783062250338305700, 204390934391655526425600, 204450716538411094018800, 204481113567602449231000,
  204490733458457977144550, 204610847891911777765000, 204621021938529261815500, 204631113567602449231000, 204650788724139738256550,
  204890988291305599694200, 204910779458256689986050, 204931182882320505225600, 204970893845144715609000, 204980831727776622123500,
  205111032474580827598100, 205130867182278390214200, 205380957753140644576100, 205400704550683368069000, 205420968875704155598400,
  205510816526155892260900, 205530834758311571656400, 205590905623448281247400, 205700831727776622123500, 205721113567602449231000,
  205810846152737506578100, 205981113567602449231000, 205991057606023655688800, 206050930309456074400000, 206071032474580827598100,
  206131182882320505225600, 206320801111087909535200, 206330839483600056710900, 206530758749645248150900, 206590789699757232793000,
  206610957753140644576100, 206631182882320505225600, 206700968875704155598400, 206770711479861415208250, 206870922613351960787200,
  206980809115358676888800, 207111044252884393236500, 207250943092793225388500, 207290459320406398550600, 207361113567602449231000,
  207400938647616968305200, 207450847891911777765000, 207671032474580827598100, 207780860994738018405500, 207990702890894227165200,
  208030724385572638168400, 208040918976587543699700, 208050893845144715609000, 208071142335809694409000, 208080846152737506578100,
  208090732347335434637500, 208111091253247317810000, 208130867182278390214200, 208180702890894227165200, 208201113567602449231000,
  208260896662232412278600, 208280891105247296797600, 208370711929300373992100, 208390860994738018405500, 208400788724139738256550,
  208410787757948647082800, 208430679187060263862600, 208440604807968925992600, 208450922613351960787200, 208460995702102815066500,
  208490672287773115167500, 208510537756320529106200, 208520783983915848798100, 208530893845144715609000, 208540677896719780271900,
  208550650094703626267500, 208590753153779883346400, 208600851463720037973000, 208690860994738018405500, 208770878430076732883300,
  208820912077300395004500, 208910698463611859366400, 208920869332898912310600, 208961057606023655688800, 209001003706373582420100,
  209010823151094446381000, 209080885840873948255400, 209121142335809694409000, 209150754523664319162600, 209170930309456074400000,
  209181142335809694409000, 209190770978603023978300, 209231113567602449231000, 209280988291305599694200, 209340765443593515661800,
  209371021938529261815500, 209401091253247317810000, 209411113567602449231000, 209600883309093149826400, 209610899560986099603900,
  209641057606023655688800, 209731142335809694409000, 209821142335809694409000, 209840885840873948255400, 209851044252884393236500,
  209860712834283925983900, 209870776838019450583600, 209890846152737506578100, 209911252197038561220100, 209920883309093149826400,
  209931182882320505225600, 209980546924933637987800, 209990819123704532587000, 210020988291305599694200, 210100700854163944721900,
  210150947744794788877700, 210170837883565922066800, 210181032474580827598100, 210190853298633904792700, 210211057606023655688800,
  210290885840873948255400, 210330580054468482155700, 210350885840873948255400, 210400546838465841852450, 210460639292017555165600,
  210481032474580827598100, 210490883309093149826400, 210500871530789584188200, 210510813994375093832000, 210581182882320505225600,
  210630837883565922066800, 210690698070684045377500, 210700883309093149826400, 210731142335809694409000, 210781182882320505225600,
  210831032474580827598100, 210851091253247317810000, 210931091253247317810000, 210950813994375093832000, 210971057606023655688800,
  211030836308730225252900, 211060859014475288787500, 211090853298633904792700, 211230700854163944721900, 211270813994375093832000,
  211331142335809694409000, 211371182882320505225600, 211470566340535082083550, 211500839483600056710900, 211510793700290694162900,
  211520810312977781560300, 211530685208946263168100, 211550830246268043609300, 211600464837259592666100, 211610896662232412278600,
  211620878430076732883300, 211630974938166337242000, 211710563850779919910800, 211830823151094446381000, 211870823151094446381000,
  211911057606023655688800, 212050464837259592666100, 212090685208946263168100, 212130730703462800321550, 212140563850779919910800,
  212180823151094446381000, 212201182882320505225600, 212471252197038561220100, 212530828786388101494000, 212700558368590159524100,
  212710716067821990277600, 212801091253247317810000, 212900859014475288787500, 212950859014475288787500, 213060995702102815066500,
  213070871530789584188200, 213120995702102815066500, 213130693098340510134400, 213150755215708603620100, 213191182882320505225600,
  213201044252884393236500, 213220708389107668900600, 213261113567602449231000, 213270943092793225388500, 213291252197038561220100,
  213320943092793225388500, 213330813994375093832000, 213340912077300395004500, 213350721866547755312600, 213381252197038561220100,
  213401032474580827598100, 213450981392018450999000, 213550926387384759072000, 213591044252884393236500, 213600918976587543699700,
  213610702071217506747400, 213630922613351960787200, 213651091253247317810000, 213670817816496375851700, 213751252197038561220100,
  213781142335809694409000, 213820974938166337242000, 213870905623448281247400, 213881073021091638414500, 214020974938166337242000,
  214070943092793225388500, 214101073021091638414500, 214211073021091638414500, 214350789699757232793000, 214420740998259725565800,
  214430740998259725565800, 214480707093193204650000, 214491021938529261815500, 214500926387384759072000, 214510893845144715609000,
  214520896662232412278600, 214530629148893803371900, 214570627974712015703600, 214620806762308935869400, 214630865076937470431000,
  214640497341440644232800, 214651044252884393236500, 214721091253247317810000, 214740908798318112705400, 214750744679657037837400,
  214760614184784871243600, 214771057606023655688800, 214830957753140644576100, 214860968875704155598400, 214870491857104587153150,
  214880957753140644576100, 214900697679294113263800, 214910880839831890789200, 214941252197038561220100, 214950981392018450999000,
  214970853298633904792700, 215070757321049523403300, 215080541127426263337300, 215101142335809694409000, 215120555594619850608850,
  215131182882320505225600, 215141044252884393236500, 215160625666917287449100, 215170658707618999261300, 215180639292017555165600,
  215200981392018450999000, 215210734582065303837200, 215311142335809694409000, 215361182882320505225600, 215420912077300395004500,
  215471057606023655688800, 215480943092793225388500, 215510938647616968305200, 215570957753140644576100, 215600751133509151594500,
  215610893845144715609000, 215661252197038561220100, 215780768568847866072300, 215920981392018450999000, 215960844443294170648000,
  216080831727776622123500, 216190995702102815066500, 216280731796369853540500, 216290763162125739044700, 216440930309456074400000,
  216460938647616968305200, 216531252197038561220100, 216590981392018450999000, 216761012407511281383000, 216881012407511281383000,
  216930839483600056710900, 216961003706373582420100, 216970661388744744327000, 217040637136761716592100, 217051182882320505225600]

def emitM20_1 : List Nat := [
  217131182882320505225600, 217290981392018450999000, 217371252197038561220100, 217410968875704155598400, 217421021938529261815500,
  217671044252884393236500, 217961142335809694409000, 218060995702102815066500, 218070883309093149826400, 218091003706373582420100,
  218271073021091638414500, 218300764677306241104900, 218390758032796300289700, 218450938647616968305200, 218541182882320505225600,
  218550938647616968305200, 218630947744794788877700, 218841182882320505225600, 218920823151094446381000, 218951142335809694409000,
  218980943092793225388500, 219141142335809694409000, 219160813994375093832000, 219170839483600056710900, 219300810312977781560300,
  219340813994375093832000, 219431091253247317810000, 219471073021091638414500, 219780844443294170648000, 220021012407511281383000,
  220160963159862771603600, 220220853298633904792700, 220380947744794788877700, 220391113567602449231000, 220401252197038561220100,
  220650981392018450999000, 220680938647616968305200, 220991252197038561220100, 221200737447590879874800, 221220891105247296797600,
  221240943092793225388500, 221321091253247317810000, 221440981392018450999000, 221961252197038561220100, 222040963159862771603600,
  222250981392018450999000, 222350726969695756557100, 222380640607826012916700, 222400878430076732883300, 222420807931912912188500,
  222561032474580827598100, 222600922613351960787200, 222660871530789584188200, 222690423645707653245900, 222700857072666703077400,
  222780871530789584188200, 222800863015008750157400, 222830423645707653245900, 222850922613351960787200, 222910871530789584188200,
  222940857072666703077400, 222960807931912912188500, 223030703303265945551500, 223070891105247296797600, 223120626814157403672740,
  223200628560079540849600, 223300748501778319857200, 223430775128576114653600, 223510930309456074400000, 223520809115358676888800,
  223530880839831890789200, 223591113567602449231000, 223621091253247317810000, 223630988291305599694200, 223690869332898912310600,
  223741113567602449231000, 223911032474580827598100, 224020934391655526425600, 224110844443294170648000, 224351113567602449231000,
  224781182882320505225600, 225191044252884393236500, 225210876077026991864000, 225220694602128246588450, 225300834758311571656400,
  225331091253247317810000, 225641252197038561220100, 225700893845144715609000, 225770851463720037973000, 225800748501778319857200,
  225811182882320505225600, 226021113567602449231000, 226090896662232412278600, 226121252197038561220100, 226451057606023655688800,
  226811003706373582420100, 226860995702102815066500, 226960883309093149826400, 227211113567602449231000, 227270988291305599694200,
  227390905623448281247400, 227500930309456074400000, 227631091253247317810000, 227660783983915848798100, 227670783983915848798100,
  227680603886303415500250, 227710816526155892260900, 227811252197038561220100, 227880729622371189900000, 227910839483600056710900,
  227970609710136170681300, 227990823151094446381000, 228060550895459597257100, 228100619046853571851000, 228120794725940710881850,
  228151182882320505225600, 228161182882320505225600, 228180869332898912310600, 228230500336316879694900, 228250595952629191848100,
  228261044252884393236500, 228270880839831890789200, 228330728552842278225200, 228360581633129075219800, 228410880839831890789200,
  228420885840873948255400, 228460880839831890789200, 228521091253247317810000, 228550926387384759072000, 228560952623811205821000,
  228570922613351960787200, 228590934391655526425600, 228680896662232412278600, 228701142335809694409000, 228900885840873948255400,
  228940934391655526425600, 228990781244018429986650, 229021032474580827598100, 229041113567602449231000, 229090718443230591088260,
  229140463626499436918100, 229161073021091638414500, 229181182882320505225600, 229191057606023655688800, 229200664985259613678500,
  229371044252884393236500, 229411182882320505225600, 229711003706373582420100, 229820891105247296797600, 229870735718441168868700,
  229931057606023655688800, 229960752475811184808600, 230141113567602449231000, 230390860994738018405500, 230410825929050857088500,
  230571252197038561220100, 230590988291305599694200, 230640893845144715609000, 230770988291305599694200, 230901057606023655688800,
  231421057606023655688800, 232071057606023655688800, 232191252197038561220100, 232290664985259613678500, 232330957753140644576100,
  232540947744794788877700, 233760575577867095185100, 233830622855110676571900, 233840705391024447707000, 233850952623811205821000,
  233861113567602449231000, 233880952623811205821000, 233891003706373582420100, 233950876077026991864000, 233961113567602449231000,
  233980518764103531166400, 234030952623811205821000, 234080952623811205821000, 234160518764103531166400, 234251113567602449231000,
  234320878430076732883300, 234330841109652143888900, 234360760931549987614900, 234391113567602449231000, 234450857072666703077400,
  234480823151094446381000, 234490720385039176798400, 234500555406118381031700, 234520803333401588006200, 234540438107192500434800,
  234580853298633904792700, 234590918976587543699700, 234661091253247317810000, 234751057606023655688800, 234761091253247317810000,
  234780612171294030338000, 234810577086891667544060, 234851182882320505225600, 234861091253247317810000, 234930968875704155598400,
  234940947744794788877700, 235000834758311571656400, 235061113567602449231000, 235191073021091638414500, 235210885840873948255400,
  235260438107192500434800, 235271113567602449231000, 235321182882320505225600, 235440963159862771603600, 235450580658699927752000,
  235470798937089245894500, 235480883309093149826400, 235511252197038561220100, 235530849661869487705200, 235560810312977781560300,
  235580995702102815066500, 235590995702102815066500, 235600765443593515661800, 235621044252884393236500, 235630798937089245894500,
  235650580658699927752000, 235660883309093149826400, 235670565712260764134000, 235690768568847866072300, 235720908798318112705400,
  235741003706373582420100, 235761057606023655688800, 235780792685053547761100, 235811113567602449231000, 235881091253247317810000,
  236010525724020768233300, 236100995702102815066500, 236121032474580827598100, 236130738617194856193900, 236161142335809694409000,
  236170988291305599694200, 236180732347335434637500, 236210947744794788877700, 236221182882320505225600, 236261182882320505225600,
  236311142335809694409000, 236370517983865502747950, 236460805606226695761800, 236490943092793225388500, 236500943092793225388500,
  236520732347335434637500, 236530888438422588581600, 236600805606226695761800, 236650641941179099863200, 236731182882320505225600,
  236810963159862771603600, 237000974938166337242000, 237031032474580827598100, 237771252197038561220100, 237821182882320505225600,
  238030957753140644576100, 238051252197038561220100, 238150908798318112705400, 238311032474580827598100, 239610912077300395004500,
  240181182882320505225600, 240340865076937470431000, 240370512440885008814900, 240380857072666703077400, 240391032474580827598100,
  240460753153779883346400, 240490902546282414572000, 240500719896040647379300, 240520855167847206007900, 240551091253247317810000,
  240620853298633904792700, 240650611674192758135950, 240660726969695756557100, 240670981392018450999000, 240720888438422588581600,
  240761182882320505225600, 240890968875704155598400, 240930995702102815066500, 241020833231564358577600, 241070888438422588581600,
  241090731796369853540500, 241100995702102815066500, 241180833231564358577600, 241200809115358676888800, 241241252197038561220100,
  241250873778075169394000, 241331252197038561220100, 241491182882320505225600, 241511252197038561220100, 241630611674192758135950,
  241710995702102815066500, 241780741602491171162000, 241790713289865579570000, 241800491210818469864650, 241820857072666703077400,
  241841252197038561220100, 241850741602491171162000, 241870968875704155598400, 241880947744794788877700, 241900883309093149826400,
  241910828786388101494000, 242020893845144715609000, 242070777703825724895100, 242081113567602449231000, 242120749153246421976500,
  242130905623448281247400, 242230905623448281247400, 242300908798318112705400, 242311073021091638414500, 242370876077026991864000,
  242480778577193721770600, 242581073021091638414500, 242650943092793225388500, 242881142335809694409000, 242900905623448281247400,
  242910828786388101494000, 243001113567602449231000, 243100918976587543699700, 243110938647616968305200, 243140558271643957069300,
  243200653300896872233800, 243220664423460383256200, 243230995702102815066500, 243241252197038561220100, 243350692354842661382600,
  243410770168882000716400, 243431057606023655688800, 243511252197038561220100, 243520896662232412278600, 243570863015008750157400,
  243591252197038561220100, 243670963159862771603600, 243690836308730225252900, 243730896662232412278600, 243750703717345212154600,
  243771012407511281383000, 243780703717345212154600, 243921012407511281383000, 243960863015008750157400, 243980963159862771603600,
  244020974938166337242000, 244030689434927192156350, 244051044252884393236500, 244180623040124605388100, 244250821790529240803000,
  244330828786388101494000, 244410952623811205821000, 244440867182278390214200, 244480908798318112705400, 244520867182278390214200,
  244530752475811184808600, 244591012407511281383000, 244600639292017555165600, 244641091253247317810000, 244650867182278390214200,
  244660642614582317997600, 244710574889000995666500, 244780790684986877094200, 244930952623811205821000, 244940947744794788877700,
  245031113567602449231000, 245150615206940278397400, 245170687299614745099500, 245250820448227207589100, 245360926387384759072000,
  245370893845144715609000, 245441073021091638414500, 245511182882320505225600, 245550824530426659614500, 245650963159862771603600,
  245730698070684045377500, 245760823151094446381000, 245770763162125739044700, 245900701258204898422400, 245940847891911777765000,
  245970718925159234683200, 246041142335809694409000, 246050760931549987614900, 246081113567602449231000, 246130739800640620894200,
  246150559834175747377400, 246160893845144715609000, 246180896662232412278600, 246350957753140644576100, 246460934391655526425600,
  246510876077026991864000, 246560974938166337242000, 246580934391655526425600, 246741021938529261815500, 246771044252884393236500,
  246800915467455562572700, 246811044252884393236500, 246851113567602449231000, 246870869332898912310600, 246940963159862771603600,
  247240930309456074400000, 247361113567602449231000, 247390896662232412278600, 247441113567602449231000, 247480885840873948255400]

def emitM20_2 : List Nat := [
  247541182882320505225600, 247730706238487146804150, 247780791680019962410950, 247850915467455562572700, 247961057606023655688800,
  248000876077026991864000, 248010963159862771603600, 248110824530426659614500, 248151252197038561220100, 248190476150335639878000,
  248251142335809694409000, 248260995702102815066500, 248331003706373582420100, 248400745937535258523400, 248470587039851202247400,
  248590957753140644576100, 248630680494268420597950, 248711057606023655688800, 248951182882320505225600, 249040963159862771603600,
  249070763162125739044700, 249081182882320505225600, 249300899560986099603900, 249311252197038561220100, 249350981392018450999000,
  249360893845144715609000, 249420915467455562572700, 249621182882320505225600, 249700824530426659614500, 249761142335809694409000,
  249771142335809694409000, 249801073021091638414500, 249991113567602449231000, 250101091253247317810000, 250260833231564358577600,
  250320885840873948255400, 250330749153246421976500, 250770912077300395004500, 250790823151094446381000, 250800885840873948255400,
  250880876077026991864000, 250961142335809694409000, 251000817816496375851700, 251031003706373582420100, 251040483351502906225700,
  251050695362588185110400, 251061113567602449231000, 251100790684986877094200, 251120675364938981842800, 251360675364938981842800,
  251381003706373582420100, 251401252197038561220100, 251511142335809694409000, 251520557499439347678300, 251630681154336823733200,
  251650981392018450999000, 251690934391655526425600, 251710706664927025450000, 251871044252884393236500, 251911044252884393236500,
  251951044252884393236500, 251961003706373582420100, 251971073021091638414500, 251980952623811205821000, 251990918976587543699700,
  252061252197038561220100, 252090915467455562572700, 252120905623448281247400, 252140902546282414572000, 252150918976587543699700,
  252160947744794788877700, 252260737447590879874800, 252331252197038561220100, 252350873778075169394000, 252370930309456074400000,
  252390876077026991864000, 252400995702102815066500, 252481252197038561220100, 252500918976587543699700, 252520885840873948255400,
  252530851463720037973000, 252601012407511281383000, 252651032474580827598100, 252690902546282414572000, 252730981392018450999000,
  252850803333401588006200, 252890771794934087894500, 252921091253247317810000, 252930988291305599694200, 252961012407511281383000,
  252980995702102815066500, 252990963159862771603600, 253000974938166337242000, 253020908798318112705400, 253070968875704155598400,
  253140918976587543699700, 253171113567602449231000, 253191113567602449231000, 253311044252884393236500, 253430981392018450999000,
  253451142335809694409000, 253460988291305599694200, 253510709702036813079800, 253531252197038561220100, 253610896662232412278600,
  253770981392018450999000, 253811073021091638414500, 253861252197038561220100, 253910899560986099603900, 254020934391655526425600,
  254231182882320505225600, 254291091253247317810000, 254390930309456074400000, 254420695362588185110400, 254540902546282414572000,
  254631091253247317810000, 254751044252884393236500, 254800836308730225252900, 254810888438422588581600, 254841012407511281383000,
  254881142335809694409000, 254900878430076732883300, 254990988291305599694200, 255041073021091638414500, 255051252197038561220100,
  255060938647616968305200, 255070995702102815066500, 255090811525113834794700, 255120865076937470431000, 255520807931912912188500,
  255540988291305599694200, 255621003706373582420100, 255630695362588185110400, 255821073021091638414500, 255970651315720016960600,
  256130930309456074400000, 256151073021091638414500, 256220922613351960787200, 256281252197038561220100, 256450963159862771603600,
  256540918976587543699700, 256581182882320505225600, 256700730703462800321550, 256710922613351960787200, 257050934391655526425600,
  257151252197038561220100, 257200952623811205821000, 257351182882320505225600, 257780934391655526425600, 257881252197038561220100,
  257931113567602449231000, 258020776838019450583600, 258030981392018450999000, 258050880839831890789200, 258101032474580827598100,
  258120803333401588006200, 258180902546282414572000, 258301044252884393236500, 258401113567602449231000, 258500730703462800321550,
  258561182882320505225600, 258710918976587543699700, 258740860994738018405500, 258841182882320505225600, 258900860994738018405500,
  259000651315720016960600, 259031073021091638414500, 259100773447864283015500, 259121182882320505225600, 259130698463611859366400,
  259151142335809694409000, 259180830246268043609300, 259190561421510663006400, 259251142335809694409000, 259280800018180856316000,
  259320899560986099603900, 259350963159862771603600, 259370801111087909535200, 259430778577193721770600, 259441044252884393236500,
  259450562023317895562700, 259491252197038561220100, 259500988291305599694200, 259540742210395778800300, 259551091253247317810000,
  259640995702102815066500, 259680653551838032776300, 259701091253247317810000, 259721091253247317810000, 259730899560986099603900,
  259760653551838032776300, 259910589525263636317650, 259951113567602449231000, 260010893845144715609000, 260070663864799712392200,
  260090678539808813300900, 260120952623811205821000, 260201142335809694409000, 260211252197038561220100, 260250995702102815066500,
  260280995702102815066500, 260290760198945978407600, 260311252197038561220100, 260320815252253314517900, 260390760198945978407600,
  260410543523245110162400, 260440589525263636317650, 260451142335809694409000, 260490817816496375851700, 260600981392018450999000,
  260621073021091638414500, 260630783983915848798100, 260710934391655526425600, 260800499041800420491200, 260850614354420196061400,
  260861044252884393236500, 260870847891911777765000, 260890828786388101494000, 260971182882320505225600, 261020531485152940444500,
  261031252197038561220100, 261060885840873948255400, 261181252197038561220100, 261240774284689250067200, 261260737447590879874800,
  261270873778075169394000, 261310797867560334219700, 261430851463720037973000, 261490880839831890789200, 261571252197038561220100,
  261590521745443915204500, 261740859014475288787500, 261780531485152940444500, 261851091253247317810000, 261871091253247317810000,
  261950957753140644576100, 261971142335809694409000, 262021113567602449231000, 262230863015008750157400, 262240863015008750157400,
  262340869332898912310600, 262471252197038561220100, 262481142335809694409000, 262571073021091638414500, 262620844443294170648000,
  262630885840873948255400, 262741182882320505225600, 262920756614332801094050, 263130957753140644576100, 263361252197038561220100,
  263540846152737506578100, 263551142335809694409000, 263561073021091638414500, 263600988291305599694200, 263611252197038561220100,
  263671044252884393236500, 263710522352528410405400, 263760938647616968305200, 263770499256392777518900, 263790803333401588006200,
  263810732347335434637500, 263910918976587543699700, 263950915467455562572700, 263970876077026991864000, 263990566025904513147100,
  264080749153246421976500, 264100700451748914749300, 264110891105247296797600, 264120601469267322718900, 264150778577193721770600,
  264201113567602449231000, 264210938647616968305200, 264260592755692586242200, 264291032474580827598100, 264320860994738018405500,
  264340893845144715609000, 264350679838528365982000, 264380791680019962410950, 264480803333401588006200, 264491032474580827598100,
  264631113567602449231000, 264650718443230591088260, 264690627199514335271800, 264791142335809694409000, 264810797867560334219700,
  264950908798318112705400, 264970771794934087894500, 265000968875704155598400, 265051032474580827598100, 265120802216071528193600,
  265190873778075169394000, 265240867182278390214200, 265251021938529261815500, 265300704969971194072600, 265381044252884393236500,
  265500902546282414572000, 265790938647616968305200, 265801252197038561220100, 265970915467455562572700, 266111252197038561220100,
  266310930309456074400000, 266391091253247317810000, 266410782149001981978500, 266460825929050857088500, 266790591127434089444200,
  266800812752123093976300, 266810771794934087894500, 266840876077026991864000, 266850981392018450999000, 266911091253247317810000,
  266960952623811205821000, 267231021938529261815500, 267510791680019962410950, 267531142335809694409000, 267810718443230591088260,
  267861032474580827598100, 267900869332898912310600, 267991182882320505225600, 268000811525113834794700, 268200995702102815066500,
  268291113567602449231000, 268401252197038561220100, 268621003706373582420100, 268651073021091638414500, 268660825929050857088500,
  268691091253247317810000, 268741057606023655688800, 268930598527878802089600, 268940631741262304351100, 269890602973055059172900,
  269970771794934087894500, 270041182882320505225600, 270100988291305599694200, 270360981392018450999000, 270540918976587543699700,
  270830968875704155598400, 270851044252884393236500, 271380705391024447707000, 271551182882320505225600, 271610930309456074400000,
  271660704969971194072600, 271690747854526869295460, 271710591127434089444200, 271780841109652143888900, 271921113567602449231000,
  271930782149001981978500, 272310592755692586242200, 272331012407511281383000, 272430841109652143888900, 272801113567602449231000,
  272841021938529261815500, 273961091253247317810000, 274020679838528365982000, 274250847891911777765000, 274260899560986099603900,
  274420766994012169258350, 274531073021091638414500, 274541003706373582420100, 274680755215708603620100, 274890899560986099603900,
  274900842762582339010000, 274910869332898912310600, 274920582493613794571600, 274930643066050353450300, 274940621023557645928650,
  274950844443294170648000, 274981057606023655688800, 275060963159862771603600, 275110974938166337242000, 275120974938166337242000,
  275150769365664830990000, 275291142335809694409000, 275300974938166337242000, 275311057606023655688800, 275421012407511281383000,
  275441057606023655688800, 275730732901353472199100, 275780860994738018405500, 275800816526155892260900, 275841113567602449231000,
  275851113567602449231000, 275891252197038561220100, 275970871530789584188200, 275990902546282414572000, 276020747854526869295460,
  276040651070321120803900, 276111057606023655688800, 276271032474580827598100, 276650508241107647888150, 276680577673403612783900,
  276830577673403612783900, 276961142335809694409000, 277000645818517692459300, 277040968875704155598400, 277140853298633904792700,
  277190859014475288787500, 277210841109652143888900, 277350880839831890789200, 277411252197038561220100, 277430780347151431710600]

def emitM20_3 : List Nat := [
  277440995702102815066500, 277481073021091638414500, 277601252197038561220100, 277690896662232412278600, 277700754523664319162600,
  277730760931549987614900, 277840802216071528193600, 277850802216071528193600, 277921044252884393236500, 277940709702036813079800,
  278011021938529261815500, 278090709702036813079800, 278141252197038561220100, 278151057606023655688800, 278190908798318112705400,
  278270952623811205821000, 278330795762219414436400, 278350581266604535390200, 278410930309456074400000, 278501032474580827598100,
  278610558659993959709040, 278670885840873948255400, 278740963159862771603600, 278771142335809694409000, 278800794725940710881850,
  278820756614332801094050, 278881142335809694409000, 278990957753140644576100, 279001073021091638414500, 279050863015008750157400,
  279081003706373582420100, 279150674431806238954400, 279221182882320505225600, 279271012407511281383000, 279341032474580827598100,
  279411003706373582420100, 279460860994738018405500, 279580896662232412278600, 279630669302476800199400, 279640876077026991864000,
  279660930309456074400000, 279690630936428986068250, 279730915467455562572700, 279791142335809694409000, 279820598383056184453100,
  279851252197038561220100, 279871182882320505225600, 280090922613351960787200, 280100788724139738256550, 280140905623448281247400,
  280230774284689250067200, 280241252197038561220100, 280400842762582339010000, 280410926387384759072000, 280590891105247296797600,
  280610896662232412278600, 280651113567602449231000, 280721142335809694409000, 280790995702102815066500, 280921021938529261815500,
  280961252197038561220100, 281021091253247317810000, 281070865076937470431000, 281201012407511281383000, 281220756614332801094050,
  281291073021091638414500, 281321142335809694409000, 281360988291305599694200, 281381252197038561220100, 281450746572458026389300,
  281490883309093149826400, 281510926387384759072000, 281531044252884393236500, 281540915467455562572700, 281551057606023655688800,
  281650675052926248218500, 281700883309093149826400, 281761032474580827598100, 281801073021091638414500, 281930974938166337242000,
  281981113567602449231000, 282010793700290694162900, 282041142335809694409000, 282160760198945978407600, 282221252197038561220100,
  282460974938166337242000, 282711073021091638414500, 282870812752123093976300, 283100765443593515661800, 283160912077300395004500,
  283220995702102815066500, 283310793700290694162900, 283350934391655526425600, 283420899560986099603900, 283540981392018450999000,
  283561057606023655688800, 283571113567602449231000, 283630857072666703077400, 283691252197038561220100, 283721252197038561220100,
  283780876077026991864000, 283850676939774678656800, 283891182882320505225600, 283900930309456074400000, 284041142335809694409000,
  284140876077026991864000, 284150676939774678656800, 284171073021091638414500, 284360715133235748453800, 284500841109652143888900,
  284590981392018450999000, 284661142335809694409000, 284721032474580827598100, 284911044252884393236500, 284971073021091638414500,
  285000863015008750157400, 285141142335809694409000, 285181073021091638414500, 285260880839831890789200, 285510896662232412278600,
  285520974938166337242000, 285581252197038561220100, 285720857072666703077400, 286080766215798125052850, 286111182882320505225600,
  286290812752123093976300, 286390598383056184453100, 286440891105247296797600, 286511182882320505225600, 286810957753140644576100,
  287221044252884393236500, 287340857072666703077400, 287480902546282414572000, 287531182882320505225600, 287720930309456074400000,
  287790645123265760971100, 287811113567602449231000, 287831057606023655688800, 287840839483600056710900, 287890905623448281247400,
  287970668423993844626100, 287980668423993844626100, 287991021938529261815500, 288141182882320505225600, 288460930309456074400000,
  288560785853129150013350, 288570849661869487705200, 288580527988802635523950, 288660885840873948255400, 288720988291305599694200,
  288791044252884393236500, 288881113567602449231000, 288911057606023655688800, 288950772617984001546000, 289020974938166337242000,
  289031091253247317810000, 289090742210395778800300, 289211182882320505225600, 289381252197038561220100, 289610499041800420491200,
  289661182882320505225600, 289820493668930697307600, 290061252197038561220100, 290170772617984001546000, 290310851463720037973000,
  290330974938166337242000, 290600952623811205821000, 290661113567602449231000, 290710896662232412278600, 290761252197038561220100,
  290870968875704155598400, 291050742210395778800300, 291230885840873948255400, 291281057606023655688800, 291341113567602449231000,
  291381091253247317810000, 291510995702102815066500, 291581021938529261815500, 291651057606023655688800, 292110885840873948255400,
  292280922613351960787200, 292290774284689250067200, 292330957753140644576100, 292380902546282414572000, 292391113567602449231000,
  292421113567602449231000, 292451073021091638414500, 292460908798318112705400, 292541003706373582420100, 292550922613351960787200,
  292560968875704155598400, 292601073021091638414500, 292730812752123093976300, 292750863015008750157400, 292890657393539643155500,
  293011057606023655688800, 293050686597857479234800, 293060968875704155598400, 293091057606023655688800, 293221113567602449231000,
  293461113567602449231000, 293510968875704155598400, 293561113567602449231000, 293590922613351960787200, 293660622670438417255500,
  293690713289865579570000, 293760622670438417255500, 293781032474580827598100, 293991113567602449231000, 294061182882320505225600,
  294080905623448281247400, 294200790684986877094200, 294240952623811205821000, 294260981392018450999000, 294360893845144715609000,
  294541252197038561220100, 294650952623811205821000, 294670795762219414436400, 294740988291305599694200, 294821113567602449231000,
  294830988291305599694200, 294860968875704155598400, 294921252197038561220100, 294940713289865579570000, 294990981392018450999000,
  295181142335809694409000, 295440790684986877094200, 295521182882320505225600, 295571252197038561220100, 295630968875704155598400,
  295750899560986099603900, 295771091253247317810000, 295790752475811184808600, 296150635655253138078100, 296160853298633904792700,
  296270849661869487705200, 296450817816496375851700, 296641073021091638414500, 296770772617984001546000, 296940853298633904792700,
  297020584362827095786900, 297481012407511281383000, 297491032474580827598100, 297501032474580827598100, 297881057606023655688800,
  298241182882320505225600, 298270836308730225252900, 298641044252884393236500, 298720635655253138078100, 299161182882320505225600,
  299221012407511281383000, 299231252197038561220100, 299261091253247317810000, 299340918976587543699700, 299420968875704155598400,
  299730918976587543699700, 299760815252253314517900, 299780802216071528193600, 299830516059495663485200, 299860465256867303511200,
  299920665833921001410400, 300000740397657319544600, 300010759471670045499600, 300021091253247317810000, 300050592618987165088900,
  300070792685053547761100, 300110963159862771603600, 300211182882320505225600, 300280594133124832725200, 300410809115358676888800,
  300530988291305599694200, 300590963159862771603600, 300640664423460383256200, 300700689434927192156350, 300861252197038561220100,
  300901091253247317810000, 300970647933755192981900, 301030915467455562572700, 301050873778075169394000, 301271091253247317810000,
  301420853298633904792700, 301491012407511281383000, 301621091253247317810000, 301650905623448281247400, 301711073021091638414500,
  301961032474580827598100, 302191091253247317810000, 302740915467455562572700, 303061091253247317810000, 303311073021091638414500,
  303320627974712015703600, 303330705391024447707000, 303340688006331467408750, 303380885840873948255400, 303400562123972156702840,
  303420899560986099603900, 303430995702102815066500, 303820671985201023513800, 304060988291305599694200, 304080772617984001546000,
  304100853298633904792700, 304140899560986099603900, 304160883309093149826400, 304221021938529261815500, 304240842762582339010000,
  304270772617984001546000, 304330738617194856193900, 304360842762582339010000, 304420871530789584188200, 304460719896040647379300,
  304520876077026991864000, 304560635026978820128550, 304601113567602449231000, 304651113567602449231000, 304730844443294170648000,
  304750792685053547761100, 304950694602128246588450, 304960968875704155598400, 305240611179550364603400, 305260700854163944721900,
  305280631539445888727350, 305440888438422588581600, 305551182882320505225600, 305580888438422588581600, 305681252197038561220100,
  305851073021091638414500, 305911113567602449231000, 306060952623811205821000, 306100837883565922066800, 306220837883565922066800,
  306330802216071528193600, 306360918976587543699700, 306820802216071528193600, 306830793700290694162900, 306930693472172721195200,
  307010878430076732883300, 307070819123704532587000, 307190735718441168868700, 307210988291305599694200, 307331182882320505225600,
  307421113567602449231000, 307720871530789584188200, 307761142335809694409000, 307840792685053547761100, 308280764677306241104900,
  308300863015008750157400, 308601252197038561220100, 308611057606023655688800, 308711012407511281383000, 308871091253247317810000,
  308960947744794788877700, 309060863015008750157400, 309080988291305599694200, 309130809115358676888800, 309331142335809694409000,
  309381113567602449231000, 309520915467455562572700, 309900792685053547761100, 310011057606023655688800, 310140735718441168868700,
  310340876077026991864000, 310360847891911777765000, 310380608262001451210200, 310620918976587543699700, 310700632756499450752850,
  310770995702102815066500, 310800988291305599694200, 310960968875704155598400, 311050819123704532587000, 311170968875704155598400,
  311191113567602449231000, 311500847891911777765000, 311610930309456074400000, 311631012407511281383000, 311661091253247317810000,
  311690880839831890789200, 311790883309093149826400, 311810586524386143380900, 311850536657408371546650, 311920893845144715609000,
  311990815252253314517900, 312150809115358676888800, 312160902546282414572000, 312271021938529261815500, 312320803333401588006200,
  312430876077026991864000, 312780586524386143380900, 312810902546282414572000, 312831252197038561220100, 312910878430076732883300,
  312921252197038561220100, 313090809115358676888800, 313371252197038561220100, 313501142335809694409000, 313511182882320505225600,
  313540683499502927238100, 313591057606023655688800, 313631057606023655688800, 313881073021091638414500, 313890957753140644576100]

def emitM20_4 : List Nat := [
  314010957753140644576100, 314020876077026991864000, 314061182882320505225600, 314281073021091638414500, 314341057606023655688800,
  314350930309456074400000, 314461044252884393236500, 314540938647616968305200, 314560783062250338305700, 314610853298633904792700,
  314710891105247296797600, 314780938647616968305200, 314871044252884393236500, 315050751802407966674200, 315080918976587543699700,
  315261252197038561220100, 315280952623811205821000, 315320783983915848798100, 315391021938529261815500, 315580918976587543699700,
  315610606050220925848300, 315630912077300395004500, 315701003706373582420100, 316090825929050857088500, 316161252197038561220100,
  316390988291305599694200, 316490610687342644060600, 316610963159862771603600, 316800770168882000716400, 316841252197038561220100,
  316870606677182227207900, 317261044252884393236500, 317771252197038561220100, 317991113567602449231000, 318091073021091638414500,
  318111044252884393236500, 318200825929050857088500, 318391073021091638414500, 318590981392018450999000, 318670737447590879874800,
  318811252197038561220100, 318900873778075169394000, 318951073021091638414500, 319091142335809694409000, 319181182882320505225600,
  319211113567602449231000, 319321057606023655688800, 319460803333401588006200, 319751182882320505225600, 319950578737872563925300,
  320000782149001981978500, 320040885840873948255400, 320050672591263484682900, 320131057606023655688800, 320251091253247317810000,
  320260637993298002484450, 320270968875704155598400, 320281252197038561220100, 320321057606023655688800, 320340905623448281247400,
  320390681486012086332500, 320470820448227207589100, 320480755912575535229350, 320660981392018450999000, 320680725928019670731600,
  320800708389107668900600, 320850769365664830990000, 320971044252884393236500, 321020930309456074400000, 321130741602491171162000,
  321140922613351960787200, 321470564777189015890600, 321600974938166337242000, 321620711032433375716100, 321730723370335491766500,
  321771182882320505225600, 321780893845144715609000, 321890968875704155598400, 321910816526155892260900, 322020681486012086332500,
  322101252197038561220100, 322180798937089245894500, 322240764677306241104900, 322271003706373582420100, 322320891105247296797600,
  322441182882320505225600, 322991113567602449231000, 323020893845144715609000, 323050819123704532587000, 323111252197038561220100,
  323170957753140644576100, 323211252197038561220100, 323400891105247296797600, 323501252197038561220100, 323531091253247317810000,
  323611182882320505225600, 323960809115358676888800, 323991073021091638414500, 324060641717715319721550, 324180672591263484682900,
  324200641717715319721550, 324220885840873948255400, 324230637993298002484450, 324260782149001981978500, 324291252197038561220100,
  324341182882320505225600, 324351057606023655688800, 324370819123704532587000, 324390968875704155598400, 324401091253247317810000,
  324470798937089245894500, 324511182882320505225600, 324520725928019670731600, 324540755912575535229350, 324550891105247296797600,
  324560981392018450999000, 324630564777189015890600, 324670708389107668900600, 324691252197038561220100, 324730930309456074400000,
  324761044252884393236500, 324770769365664830990000, 324790741602491171162000, 324831091253247317810000, 324901252197038561220100,
  324930809115358676888800, 324960968875704155598400, 324991182882320505225600, 325000723370335491766500, 325010816526155892260900,
  325040711032433375716100, 325110974938166337242000, 325320764677306241104900, 325331252197038561220100, 325340891105247296797600,
  325361003706373582420100, 325411113567602449231000, 325441073021091638414500, 325530893845144715609000, 325701044252884393236500,
  325920952623811205821000, 325930893845144715609000, 325990952623811205821000, 326021003706373582420100, 326180899560986099603900,
  326220771794934087894500, 326241003706373582420100, 326450952623811205821000, 326501044252884393236500, 326540726969695756557100,
  326730943092793225388500, 326760771794934087894500, 326800943092793225388500, 326810952623811205821000, 326971057606023655688800,
  327051073021091638414500, 327281113567602449231000, 327361182882320505225600, 327450926387384759072000, 327611113567602449231000,
  327630891105247296797600, 327641252197038561220100, 327690664703965476017100, 327711057606023655688800, 327730745306618339197000,
  327800508006365756057700, 327811182882320505225600, 327840981392018450999000, 327890809115358676888800, 327911091253247317810000,
  328190952623811205821000, 328231032474580827598100, 328240963159862771603600, 328271044252884393236500, 328311142335809694409000,
  328440807931912912188500, 328520768568847866072300, 328540891105247296797600, 328580988291305599694200, 328620918976587543699700,
  328741032474580827598100, 328790768568847866072300, 328801032474580827598100, 328820603886303415500250, 328830963159862771603600,
  328870807931912912188500, 328930943092793225388500, 329021032474580827598100, 329050783062250338305700, 329071057606023655688800,
  329081057606023655688800, 329220847891911777765000, 329250899560986099603900, 329280760198945978407600, 329290849661869487705200,
  329330828786388101494000, 329370812752123093976300, 329460790684986877094200, 329541252197038561220100, 329590727494631345171400,
  329600847891911777765000, 329631091253247317810000, 329660821790529240803000, 329721032474580827598100, 329861142335809694409000,
  329880730703462800321550, 329930798937089245894500, 330141182882320505225600, 330161113567602449231000, 330210646753103934283050,
  330301044252884393236500, 330320729086176875761450, 330330729086176875761450, 330391073021091638414500, 330410698070684045377500,
  330461012407511281383000, 330500974938166337242000, 330671252197038561220100, 330731252197038561220100, 330800880839831890789200,
  330810847891911777765000, 330861044252884393236500, 330980922613351960787200, 331040841109652143888900, 331080930309456074400000,
  331091142335809694409000, 331260698070684045377500, 331310727494631345171400, 331340836308730225252900, 331361012407511281383000,
  331390974938166337242000, 331440760198945978407600, 331450968875704155598400, 331460742210395778800300, 331471142335809694409000,
  331501073021091638414500, 331510995702102815066500, 331520968875704155598400, 331621057606023655688800, 331671142335809694409000,
  331811091253247317810000, 331841182882320505225600, 331920536034838267301300, 331931142335809694409000, 332130821790529240803000,
  332181091253247317810000, 332221057606023655688800, 332250880839831890789200, 332400922613351960787200, 332471073021091638414500,
  332560934391655526425600, 332580685900990547625500, 332611142335809694409000, 332670707523301394589050, 332680762413058566128900,
  332751044252884393236500, 332781012407511281383000, 332861252197038561220100, 332870885840873948255400, 332880783983915848798100,
  332890828786388101494000, 332900847891911777765000, 332920878430076732883300, 332931073021091638414500, 333100963159862771603600,
  333240657132783302447400, 333371044252884393236500, 333910775979645081444500, 333921044252884393236500, 333931044252884393236500,
  333940701258204898422400, 333950995702102815066500, 333990995702102815066500, 334020611344159455270300, 334100770168882000716400,
  334451091253247317810000, 334461252197038561220100, 334570605738208192224000, 334591252197038561220100, 334691044252884393236500,
  334850981392018450999000, 335001073021091638414500, 335021021938529261815500, 335030995702102815066500, 335090915467455562572700,
  335100806762308935869400, 335210926387384759072000, 335291091253247317810000, 335381182882320505225600, 335391252197038561220100,
  335501252197038561220100, 335791057606023655688800, 335901252197038561220100, 336090841109652143888900, 336151182882320505225600,
  336181113567602449231000, 336330871530789584188200, 336350918976587543699700, 336431142335809694409000, 336471012407511281383000,
  336551113567602449231000, 336861252197038561220100, 337070784914155115029500, 337131113567602449231000, 337400878430076732883300,
  337561182882320505225600, 337691252197038561220100, 337751113567602449231000, 338021113567602449231000, 338211057606023655688800,
  338290995702102815066500, 338320930309456074400000, 338360693098340510134400, 338530726969695756557100, 338621142335809694409000,
  338651252197038561220100, 338790631539445888727350, 338831032474580827598100, 338990952623811205821000, 339051142335809694409000,
  339141021938529261815500, 339450774284689250067200, 339800981392018450999000, 339951021938529261815500, 340281252197038561220100,
  340851142335809694409000, 340931142335809694409000, 341091142335809694409000, 341211091253247317810000, 341221142335809694409000,
  341800899560986099603900, 342170930309456074400000, 342181252197038561220100, 342550981392018450999000, 342590867182278390214200,
  342690611344159455270300, 342761182882320505225600, 342771012407511281383000, 343101252197038561220100, 343151091253247317810000,
  343300867182278390214200, 343671057606023655688800, 343820883309093149826400, 343841142335809694409000, 343850915467455562572700,
  343890729622371189900000, 343940833231564358577600, 343950833231564358577600, 343990981392018450999000, 344070745937535258523400,
  344111252197038561220100, 344291113567602449231000, 344321073021091638414500, 344331252197038561220100, 344340912077300395004500,
  344531252197038561220100, 345030957753140644576100, 345070682823824680950150, 345211252197038561220100, 345321073021091638414500,
  345421182882320505225600, 345581057606023655688800, 345601057606023655688800, 345621142335809694409000, 345691252197038561220100,
  345881012407511281383000, 346451073021091638414500, 346901091253247317810000, 347010934391655526425600, 347180912077300395004500,
  347581073021091638414500, 348021252197038561220100, 348111252197038561220100, 348701252197038561220100, 348751182882320505225600,
  348800784914155115029500, 348850934391655526425600, 348920660039196596838500, 348990778577193721770600, 349030796809349401166000,
  349070926387384759072000, 349131073021091638414500, 349150952623811205821000, 349170730703462800321550, 349200891105247296797600,
  349230957753140644576100, 349280842762582339010000, 349491032474580827598100, 349661012407511281383000, 349961113567602449231000,
  350100873778075169394000, 350130582247004545052250, 350181032474580827598100, 350290957753140644576100, 350360730703462800321550,
  350370582247004545052250, 350410721370268821099600, 350901142335809694409000, 351240957753140644576100, 351720957753140644576100]

def emitM20_5 : List Nat := [
  351990726447501358441900, 352010595670541557684000, 352060934391655526425600, 352110717486285489473200, 352150610197545746505800,
  352191032474580827598100, 352220974938166337242000, 352420795762219414436400, 352580821790529240803000, 352610876077026991864000,
  352640783983915848798100, 352650717486285489473200, 352660783983915848798100, 352680610197545746505800, 352691032474580827598100,
  352700974938166337242000, 352720876077026991864000, 352730821790529240803000, 352820793700290694162900, 352990722866556088770800,
  353021142335809694409000, 353201142335809694409000, 353280601469267322718900, 353360830246268043609300, 353381032474580827598100,
  353421032474580827598100, 353520824530426659614500, 353700873778075169394000, 353731182882320505225600, 353800841109652143888900,
  353861182882320505225600, 354221032474580827598100, 354300963159862771603600, 354331073021091638414500, 354351032474580827598100,
  354410613005327221959900, 354690755215708603620100, 354751252197038561220100, 354771032474580827598100, 354860828786388101494000,
  354881057606023655688800, 354920988291305599694200, 354980672287773115167500, 355040981392018450999000, 355190744056602062773800,
  355241012407511281383000, 355270869332898912310600, 355311091253247317810000, 355381073021091638414500, 355420580779985570272900,
  355591044252884393236500, 355711032474580827598100, 355760775979645081444500, 355820891105247296797600, 355840859014475288787500,
  356110988291305599694200, 356130963159862771603600, 356570766215798125052850, 356720704969971194072600, 356760847891911777765000,
  356860926387384759072000, 356950899560986099603900, 356961021938529261815500, 357030885840873948255400, 357220497341440644232800,
  357311003706373582420100, 357450830246268043609300, 357480755215708603620100, 357521032474580827598100, 357531003706373582420100,
  357581021938529261815500, 357591032474580827598100, 357600824530426659614500, 357620988291305599694200, 357700580779985570272900,
  357741182882320505225600, 357750873778075169394000, 357770766215798125052850, 357820704969971194072600, 357850841109652143888900,
  357861182882320505225600, 357891032474580827598100, 357930899560986099603900, 357970963159862771603600, 357991073021091638414500,
  358021057606023655688800, 358050613005327221959900, 358061032474580827598100, 358151032474580827598100, 358210828786388101494000,
  358230988291305599694200, 358280672287773115167500, 358311091253247317810000, 358320775979645081444500, 358340891105247296797600,
  358410981392018450999000, 358430744056602062773800, 358451073021091638414500, 358461012407511281383000, 358480869332898912310600,
  358510859014475288787500, 358561044252884393236500, 358651032474580827598100, 358740963159862771603600, 358890847891911777765000,
  358951113567602449231000, 359100918976587543699700, 359181044252884393236500, 359201003706373582420100, 359370847891911777765000,
  359460896662232412278600, 359470918976587543699700, 359481113567602449231000, 359800974938166337242000, 359870988291305599694200,
  359981032474580827598100, 360000760198945978407600, 360010842762582339010000, 360070841109652143888900, 360080527346631324159100,
  360091044252884393236500, 360111142335809694409000, 360120571403544191227500, 360200930309456074400000, 360230839483600056710900,
  360270697289430071698100, 360281142335809694409000, 360310621387194410267000, 360321142335809694409000, 360390399443090214181900,
  360420981392018450999000, 360511091253247317810000, 360601021938529261815500, 360620810312977781560300, 360660908798318112705400,
  360670912077300395004500, 360681091253247317810000, 360700952623811205821000, 360740849661869487705200, 360841252197038561220100,
  360901142335809694409000, 360920908798318112705400, 360931032474580827598100, 361011182882320505225600, 361261032474580827598100,
  361270760198945978407600, 361300842762582339010000, 361310571403544191227500, 361320908798318112705400, 361330778577193721770600,
  361350527346631324159100, 361360849661869487705200, 361371044252884393236500, 361390841109652143888900, 361410908798318112705400,
  361431142335809694409000, 361451091253247317810000, 361481142335809694409000, 361490930309456074400000, 361520621387194410267000,
  361530697289430071698100, 361541142335809694409000, 361560981392018450999000, 361640399443090214181900, 361710952623811205821000,
  361750810312977781560300, 361761021938529261815500, 361821252197038561220100, 361841182882320505225600, 361861142335809694409000,
  361871032474580827598100, 361961252197038561220100, 362080809115358676888800, 362121142335809694409000, 362150552163592533697050,
  362340968875704155598400, 362351012407511281383000, 362590995702102815066500, 362641012407511281383000, 362750761669560717377200,
  362910784914155115029500, 363000821790529240803000, 363050926387384759072000, 363170926387384759072000, 363190957753140644576100,
  363210968875704155598400, 363321182882320505225600, 363350595248896519790500, 363391044252884393236500, 363941073021091638414500,
  364260908798318112705400, 364340957753140644576100, 364510957753140644576100, 364540885840873948255400, 364790922613351960787200,
  364871073021091638414500, 364930784914155115029500, 365170922613351960787200, 365230649610441178688600, 365300888438422588581600,
  365381113567602449231000, 365541021938529261815500, 365560922613351960787200, 365570698463611859366400, 365750995702102815066500,
  365941182882320505225600, 366000839483600056710900, 366111182882320505225600, 366170744679657037837400, 366281021938529261815500,
  366290846152737506578100, 366490867182278390214200, 366500885840873948255400, 366550878430076732883300, 366671252197038561220100,
  366711252197038561220100, 366780915467455562572700, 366810779458256689986050, 366860952623811205821000, 367031182882320505225600,
  367101021938529261815500, 367120922613351960787200, 367160779458256689986050, 367180885840873948255400, 367190995702102815066500,
  367201182882320505225600, 367211182882320505225600, 367240839483600056710900, 367310846152737506578100, 367330744679657037837400,
  367350952623811205821000, 367391182882320505225600, 367411021938529261815500, 367440867182278390214200, 367521252197038561220100,
  367530878430076732883300, 367600915467455562572700, 367631021938529261815500, 367660847891911777765000, 367670908798318112705400,
  367711012407511281383000, 367740839483600056710900, 367770968875704155598400, 367791182882320505225600, 367810847891911777765000,
  367821182882320505225600, 367830968875704155598400, 367841182882320505225600, 367860869332898912310600, 367930847891911777765000,
  367980502476316240888400, 368011032474580827598100, 368070593029665360354300, 368081252197038561220100, 368140988291305599694200,
  368160572068735114058050, 368170827347514356284100, 368200926387384759072000, 368240813994375093832000, 368250825929050857088500,
  368270686948120534355100, 368280873778075169394000, 368300794725940710881850, 368310873778075169394000, 368341142335809694409000,
  368450974938166337242000, 368550731796369853540500, 368570968875704155598400, 368610842762582339010000, 368641113567602449231000,
  368650974938166337242000, 368700968875704155598400, 368730737447590879874800, 368740981392018450999000, 368790905623448281247400,
  368800930309456074400000, 368840769365664830990000, 368890825929050857088500, 368900645354479736809100, 368950865076937470431000,
  368960664143739921150100, 368981044252884393236500, 368990794725940710881850, 369130831727776622123500, 369140686948120534355100,
  369230797867560334219700, 369241044252884393236500, 369260968875704155598400, 369301252197038561220100, 369350873778075169394000,
  369380760198945978407600, 369390572068735114058050, 369410938647616968305200, 369420593029665360354300, 369440968875704155598400,
  369470658972519816419040, 369480502476316240888400, 369511073021091638414500, 369530806762308935869400, 369560981392018450999000,
  369600873778075169394000, 369650806762308935869400, 369740995702102815066500, 369780873778075169394000, 369831032474580827598100,
  369840737447590879874800, 369861073021091638414500, 369910618691613411414200, 369931252197038561220100, 369960813994375093832000,
  370020847891911777765000, 370070797867560334219700, 370270947744794788877700, 370301252197038561220100, 370380981392018450999000,
  370510893845144715609000, 370571091253247317810000, 370661113567602449231000, 370700938647616968305200, 370960513984601987468800,
  371090981392018450999000, 371290899560986099603900, 371450968875704155598400, 371680893845144715609000, 371971252197038561220100,
  372021003706373582420100, 372281142335809694409000, 372320867182278390214200, 372331057606023655688800, 372390974938166337242000,
  372400968875704155598400, 372571003706373582420100, 372591057606023655688800, 372661091253247317810000, 372751091253247317810000,
  372760968875704155598400, 372910871530789584188200, 372921057606023655688800, 373130934391655526425600, 373191252197038561220100,
  373220899560986099603900, 373230899560986099603900, 373240721370268821099600, 373250612670878749675200, 373260963159862771603600,
  373270786801003545467700, 373290720876440657041300, 373361012407511281383000, 373411057606023655688800, 373470974938166337242000,
  374061252197038561220100, 374281003706373582420100, 374671182882320505225600, 374761252197038561220100, 374921182882320505225600,
  375041252197038561220100, 375551142335809694409000, 375590918976587543699700, 375860912077300395004500, 376100988291305599694200,
  376280988291305599694200, 376361044252884393236500, 376480773447864283015500, 376561012407511281383000, 376580995702102815066500,
  376661032474580827598100, 376790952623811205821000, 377070883309093149826400, 377231091253247317810000, 377820796809349401166000,
  378321073021091638414500, 378571057606023655688800, 379121113567602449231000, 379410805606226695761800, 379560952623811205821000,
  379691182882320505225600, 380120869332898912310600, 380151252197038561220100, 380241057606023655688800, 380251012407511281383000,
  380350974938166337242000, 380471113567602449231000, 380500988291305599694200, 380541073021091638414500, 380551252197038561220100,
  380571252197038561220100, 380651032474580827598100, 380810805606226695761800, 380831003706373582420100, 380851182882320505225600,
  381260995702102815066500, 381341252197038561220100, 381360952623811205821000, 381380988291305599694200, 381421073021091638414500,
  381440918976587543699700, 381450796809349401166000, 381490883309093149826400, 381550912077300395004500, 381601142335809694409000]

def emitM20_6 : List Nat := [
  381690952623811205821000, 381790869332898912310600, 381801012407511281383000, 381810773447864283015500, 382031091253247317810000,
  382361057606023655688800, 382630795762219414436400, 382710795762219414436400, 382720614184784871243600, 382750804463357113399400,
  382810952623811205821000, 382830653300896872233800, 382900744679657037837400, 382910693847407683050200, 383461003706373582420100,
  383640537756320529106200, 383700908798318112705400, 383760614184784871243600, 383780804463357113399400, 383810952623811205821000,
  383820758032796300289700, 383860744679657037837400, 383880693847407683050200, 383930867182278390214200, 383950918976587543699700,
  384111252197038561220100, 384201003706373582420100, 384281091253247317810000, 384310770168882000716400, 384500786801003545467700,
  384510775979645081444500, 384520968875704155598400, 384530729086176875761450, 384540610687342644060600, 384690789699757232793000,
  384701142335809694409000, 384770974938166337242000, 384800571403544191227500, 384981032474580827598100, 384990729086176875761450,
  385000871530789584188200, 385051003706373582420100, 385120968875704155598400, 385180915467455562572700, 385201142335809694409000,
  385250775979645081444500, 385380770168882000716400, 385420610687342644060600, 385430812752123093976300, 385440896662232412278600,
  385480777703825724895100, 385550789699757232793000, 385680812752123093976300, 385701003706373582420100, 385770896662232412278600,
  385820718443230591088260, 385840718443230591088260, 385900641717715319721550, 385920878430076732883300, 385960678862910871445550,
  385971057606023655688800, 385980963159862771603600, 386040893845144715609000, 386141113567602449231000, 386170896662232412278600,
  386200893845144715609000, 386220988291305599694200, 386261012407511281383000, 386270641717715319721550, 386320841109652143888900,
  386340995702102815066500, 386420833231564358577600, 386460963159862771603600, 386470860994738018405500, 386510592618987165088900,
  386540908798318112705400, 386560988291305599694200, 386630883309093149826400, 386861142335809694409000, 386950908798318112705400,
  387060873778075169394000, 387121003706373582420100, 387280905623448281247400, 387380816526155892260900, 387451252197038561220100,
  387481252197038561220100, 387500692725900601036200, 387540651808331850566200, 387610690519928794563000, 388990772617984001546000,
  389011012407511281383000, 389020770168882000716400, 389071012407511281383000, 389131044252884393236500, 389141073021091638414500,
  389170896662232412278600, 389180995702102815066500, 389201182882320505225600, 389280860994738018405500, 389311091253247317810000,
  389360686948120534355100, 389570581633129075219800, 389691113567602449231000, 389711073021091638414500, 389880981392018450999000,
  389891252197038561220100, 389910912077300395004500, 390001182882320505225600, 390060737447590879874800, 390150834758311571656400,
  390230859014475288787500, 390240952623811205821000, 390291044252884393236500, 390301073021091638414500, 390330896662232412278600,
  390340995702102815066500, 390351182882320505225600, 390380834758311571656400, 390391091253247317810000, 390440860994738018405500,
  390460686948120534355100, 390571073021091638414500, 390591113567602449231000, 390640981392018450999000, 390680912077300395004500,
  390691252197038561220100, 390780952623811205821000, 390800590456740763772400, 391081032474580827598100, 391101182882320505225600,
  391180590456740763772400, 391281032474580827598100, 391291182882320505225600, 391310762413058566128900, 391340762413058566128900,
  391350641272280284783600, 391381113567602449231000, 391510893845144715609000, 391540915467455562572700, 391650947744794788877700,
  391661091253247317810000, 391780753153779883346400, 391871073021091638414500, 391920449384132618044150, 392081142335809694409000,
  392501021938529261815500, 392691113567602449231000, 392770893845144715609000, 392780915467455562572700, 392801091253247317810000,
  392810947744794788877700, 392861021938529261815500, 392951073021091638414500, 393021142335809694409000, 393180930309456074400000,
  393210957753140644576100, 393400813994375093832000, 394251252197038561220100, 394721073021091638414500, 394791142335809694409000,
  394930947744794788877700, 395140791680019962410950, 395191044252884393236500, 395320813994375093832000, 395370947744794788877700,
  395631252197038561220100, 395781142335809694409000, 395881044252884393236500, 395920824530426659614500, 396360612837963166156900,
  396400627780348494846500, 396991073021091638414500, 397141073021091638414500, 397170663864799712392200, 397190867182278390214200,
  397211252197038561220100, 397291091253247317810000, 397400803333401588006200, 397700918976587543699700, 400600918976587543699700,
  401651091253247317810000, 401791057606023655688800, 401800930309456074400000, 402011073021091638414500, 402511252197038561220100,
  402731182882320505225600, 402851073021091638414500, 402881252197038561220100, 403611142335809694409000, 403721182882320505225600,
  404791091253247317810000, 404810988291305599694200, 404830930309456074400000, 404861073021091638414500, 405111252197038561220100,
  405151182882320505225600, 405161252197038561220100, 405171073021091638414500, 405401142335809694409000, 405481182882320505225600,
  405730883309093149826400, 405991182882320505225600, 406350811525113834794700, 406360878430076732883300, 406430825929050857088500,
  406440825929050857088500, 406540804463357113399400, 406570885840873948255400, 406640836308730225252900, 406700849661869487705200,
  406800896662232412278600, 407180849661869487705200, 407230899560986099603900, 407630915467455562572700, 407780871530789584188200,
  407791113567602449231000, 407840871530789584188200, 407861003706373582420100, 408311003706373582420100, 408450860994738018405500,
  408570860994738018405500]

def emitM21_0 : List Nat := [
  259190069314718055994530, 276650069314718055994530]

def emitM22_0 : List Nat := [
  199680233220168367214000, 199690910816318992829500, 199710404227145061883700, 199750350300071431607800, 199770302743437072310700,
  199780868830934436803100, 199790447978611803722250, 199810871729688124128400, 199850994107231286340000, 199900853008533915313700,
  199950929921842669100400, 199971085736304473755400, 200040487028309594739600, 200100345247546912142900, 200370754317704006502900,
  200430594287161119420100, 200610412813652431067500, 200651155051022529749900, 201080266596924788622600, 201160352974677736352050,
  201230632745534325001000, 201331029774725680213000, 201540645983222352770700, 201590410567695140530600, 201911016421586417760800,
  201950858009575972779900, 202370953560720475523600, 202391155051022529749900, 202471045189793662939000, 202500435720013487975600,
  203130418627991729945300, 203361016421586417760800, 204151029774725680213000, 204571224365740585744400, 204861224365740585744400,
  204910345247546912142900, 204931155051022529749900, 207400410567695140530600, 207990766894642735406200, 208090850598778757407600,
  208111004643282852122600, 208180766894642735406200, 208281224365740585744400, 208400902478158098924300, 208410487028309594739600,
  208430380248170086512350, 208440393078601151482940, 208450382938326844904900, 208481085736304473755400, 209600398990906252894300,
  209860793959231265327500, 209980482607700344290100, 210151224365740585744400, 210510733838262741901600, 211520919913496813402200,
  213130200871015852364800, 213150336112689742382240, 213171155051022529749900, 213200941044406180122900, 213220571569948823489400,
  213260848245729016388200, 213331085736304473755400, 213591029774725680213000, 214000723971109991198600, 214411224365740585744400,
  214520725322481907870800, 214720863273949321322000, 214740929921842669100400, 214770960460007624218500, 214881224365740585744400,
  214910645369723496019200, 215441029774725680213000, 216080675059596251689600, 219341085736304473755400, 221361029774725680213000,
  222350354547688066038940, 223300919913496813402200, 223621224365740585744400, 225331224365740585744400, 225800919913496813402200,
  227680803896478646648000, 227771224365740585744400, 227880919913496813402200, 228100311138668930318470, 228230465129127733764900,
  228250759926650671607200, 228360898556086783596300, 228711224365740585744400, 229090782481679806084700, 233760696045367711945700,
  234471085736304473755400, 234780975875075606944400, 234930975875075606944400, 235450880967020137229900, 235650880967020137229900,
  235670827336549230532400, 235690632207898621362900, 236180746453391274591600, 236520746453391274591600, 240380591393650033474800,
  240511114504511718933500, 240661224365740585744400, 241780584008320792263000, 241790438578984652564200, 241800953560720475523600,
  241850584008320792263000, 241900398990906252894300, 242181224365740585744400, 242301085736304473755400, 243191114504511718933500,
  244560845946777193918500, 244940935328564796128000, 245730906560357550949900, 251000935328564796128000, 251040975875075606944400,
  251300915261495249912800, 251630898556086783596300, 252090755230952362830100, 252260953560720475523600, 252891016421586417760800,
  253021029774725680213000, 253461155051022529749900, 254201224365740585744400, 254991155051022529749900, 256680898556086783596300,
  257741114504511718933500, 258850898556086783596300, 259680523334553855021600, 259720676301848251545400, 259760523334553855021600,
  260410369865451380194040, 260801224365740585744400, 260850636033501736916600, 260921063421949342334500, 261021063421949342334500,
  261430994107231286340000, 261781063421949342334500, 261880874714984439096500, 263710435720013487975600, 263770984576213305907400,
  264101114504511718933500, 264210891145289568224000, 264791085736304473755400, 265500953560720475523600, 265781224365740585744400,
  266790984576213305907400, 267230960460007624218500, 271710984576213305907400, 272840960460007624218500, 274250705627160001669000,
  274930723971109991198600, 276041045189793662939000, 276270759926650671607200, 276630731640372070024000, 278610833163440042930000,
  280230877792150305772000, 282070568262673996087200, 284040915261495249912800, 285950802414970068133800, 288570490932805555690900,
  289611224365740585744400, 292550766894642735406200, 299260723302211176118900, 299831016421586417760800, 300020984576213305907400,
  300030910816318992829500, 300580984576213305907400, 300900863273949321322000, 303281114504511718933500, 303340311735102949127200,
  304140858009575972779900, 305261045189793662939000, 306360750745895746294960, 311810845946777193918500, 312780845946777193918500,
  314350487342676405036400, 315320758969705569992100, 316871155051022529749900, 317510929921842669100400, 319950418090950477109050,
  320131114504511718933500, 320661063421949342334500, 320681085736304473755400, 320851114504511718933500, 321141085736304473755400,
  321731063421949342334500, 324351114504511718933500, 324521085736304473755400, 324561063421949342334500, 324771114504511718933500,
  325001063421949342334500, 326540339313978411072540, 328820803896478646648000, 329220695539037516291000, 333911155051022529749900,
  335091114504511718933500, 335210618220048692942800, 337750848245729016388200, 338360350300071431607800, 343491085736304473755400,
  343890919913496813402200, 350411016421586417760800, 352111063421949342334500, 352651063421949342334500, 353770680993540230320500,
  357680680993540230320500, 360110994107231286340000, 360191224365740585744400, 361430994107231286340000, 361441224365740585744400,
  363350775502103612530500, 366351224365740585744400, 366490491719179201712300, 367421224365740585744400, 367440491719179201712300,
  367841085736304473755400, 369130675059596251689600, 370960321328137110153870, 371291155051022529749900, 371930994107231286340000,
  372760994107231286340000, 373241016421586417760800, 373270719380139860790800, 382911114504511718933500, 383881114504511718933500,
  384530566858156525782400, 384990566858156525782400, 386170725322481907870800, 386460607195680844652900, 387540984576213305907400,
  388671004643282852122600, 388891004643282852122600, 389570898556086783596300, 391920418627991729945300, 393180757082857139553860,
  393400841501600936835000, 395320841501600936835000, 406700490932805555690900]

def emitM24_0 : List Nat := [
  199680826010498404909000, 199710785463987594092600, 199750593282727846467300, 199770716149269538098000, 199780964639934516898000,
  199790854778705650087100, 199900530259392331529700, 199970603548143252475600, 200430419966197350267000, 200610675602758727281600,
  201080681318600111276500, 201950583973685539866100, 202210724850407237061050, 209600964639934516898000, 209980402238183898164300,
  210510598283769903933400, 213130700734201555372200, 213150693834914406677100, 214570854778705650087100, 214750569515562658755300,
  233950020304430208332525, 241800785463987594092600, 241900964639934516898000, 260410272572784092029740, 261430895325216460903500,
  263760612003882055282000, 266790964639934516898000, 271710964639934516898000, 274250700734201555372200, 288570624520196350682500,
  292560964639934516898000, 303320854778705650087100, 321140603548143252475600, 338360593282727846467300, 348920681318600111276500,
  369470487571472070331600, 370960310681338955131100, 387540744917476783276100, 406700624520196350682500]

def emitM25_0 : List Nat := [
  199680660531194344027900, 199690774086774730007300, 199710965698423287661000, 199750894349736807954000, 199760879415207952722300,
  199770728814975434136300, 199780712089845046840700, 199790615056333124147800, 199810755051401880885500, 199820779471097932089700,
  199871068934713600352000, 199900649852757148080000, 199920829846943586379600, 199930855381612767264000, 199940375345303185039000,
  199951007624266311711000, 199960760180731319640500, 199970765772810311600300, 199980851372167047076200, 200040854928097250724800,
  200051090292123630157800, 200060935232382389041000, 200071175021909668878100, 200100795348224671843200, 200111018624355833143900,
  200130663555750994783600, 200161215568420479694600, 200181146253702423700100, 200201076938984367705600, 200241233800576159090000,
  200250885984733879261700, 200260891049107161137100, 200270394334185145627950, 200291039209561253558800, 200300823371086851563100,
  200350931271468579536500, 200370830553660308688700, 200410638268666111927200, 200430740209401369058100, 200441146253702423700100,
  200471020977405574163300, 200480616547043959061600, 200510910325658756641000, 200561025856421991106500, 200570786980143067596700,
  200611036392473556889000, 200640745672013952249400, 200650888484864099803300, 200700559654122233019000, 200800790957275410286300,
  200811175021909668878100, 200830759133601332910950, 200981175021909668878100, 201021325429649346505600, 201041394744367402500100,
  201050659756996928666300, 201070489586459443375950, 201080738641300812842800, 201100962995556048869000, 201130870569665896535800,
  201140988700066347858100, 201160945880730429286100, 201170890401855710575400, 201220769746843176551700, 201260769746843176551700,
  201290827756275104448100, 201320552610080826559700, 201350406896628449304000, 201391175021909668878100, 201400740930385025733100,
  201411233800576159090000, 201421105707191612883600, 201460889758766677546300, 201540489364015986904550, 201600945880730429286100,
  201611138249431656346500, 201671065160680802067200, 201701233800576159090000, 201710849212255866730000, 201741085640122066668500,
  201771051345646953985400, 201790759655795731026100, 201800938309548255716500, 201820916832018091347200, 201831054624629236284500,
  201840907990922356941800, 201850878265770010148600, 201950653287079267441200, 201960610163617138719600, 201971001561804130067500,
  202020986990623011928200, 202040942565509697596000, 202081051345646953985400, 202140854476629215272000, 202150663289084170092000,
  202190694437821523853850, 202210684329958103747300, 202231076938984367705600, 202250742977240111272600, 202370990439240619045000,
  202391117485495178522000, 202400868475348512011500, 202410944763400369473600, 202470881164523697473900, 202480969894843197564200,
  202490703569637377332700, 202500502932901455047200, 202541215568420479694600, 202560668271349609513350, 202600828101698591256900,
  202621154954840122663000, 202661154954840122663000, 202710754221521599415900, 202720947010685954679400, 202760974275105463403400,
  202801175021909668878100, 202840915995193124295400, 202851284883138535689200, 202911123939347292279000, 203010711333493521116200,
  203020764299487160302000, 203030793128651432664700, 203070663823130833223800, 203080801519848657699000, 203090822713189741758900,
  203130770716782885423200, 203150837909917026390400, 203160503996669649626300, 203201284883138535689200, 203230934227348803691000,
  203251076938984367705600, 203321325429649346505600, 203391200153352496968800, 203480968476379698368500, 203510900580125141569700,
  203561233800576159090000, 203580760005446436899050, 203600846264674053434600, 203630916832018091347200, 203651325429649346505600,
  203790928400457991293300, 203840995845962746072600, 203871394744367402500100, 203901394744367402500100, 203911325429649346505600,
  203920945880730429286100, 203931325429649346505600, 203990821087137654580900, 204051030985751429861500, 204061394744367402500100,
  204150967077755500894500, 204171138249431656346500, 204201175021909668878100, 204311325429649346505600, 204331036392473556889000,
  204390926531244690078100, 204401154954840122663000, 204450614196904875414400, 204480995845962746072600, 204490739066531786695900,
  204511138249431656346500, 204620857680564589733800, 204890759655795731026100, 204910795348224671843200, 204930873250791641601500,
  204970942565509697596000, 204980994011048879253000, 205050868994830199722000, 205111051345646953985400, 205131081194945809585100,
  205231154954840122663000, 205380779471097932089700, 205400674701878108004400, 205420868475348512011500, 205510956541703935112000,
  205591036392473556889000, 205701284883138535689200, 205720827068987175672000, 205810818225257124015600, 205961325429649346505600,
  205971394744367402500100, 205981036392473556889000, 206031018624355833143900, 206051154954840122663000, 206070872169700031180000,
  206321215568420479694600, 206330655911581444789400, 206480815748350312774700, 206530934227348803691000, 206590668271349609513350,
  206610779471097932089700, 206630828101698591256900, 206700868475348512011500, 206741018624355833143900, 206811076938984367705600,
  206870758441557048453600, 206890945880730429286100, 206980965698423287661000, 207111284883138535689200, 207211186800213234516500,
  207251256114931290511000, 207290663289084170092000, 207311284883138535689200, 207360986990623011928200, 207441325429649346505600,
  207541233800576159090000, 207670872169700031180000, 207691186800213234516500, 207780969894843197564200, 207860815748350312774700,
  207990692993753108374500, 208001164485858103095600, 208030649214518834171000, 208040867958551496167300, 208051007624266311711000,
  208061256114931290511000, 208080782714625507405100, 208090695995342702401000, 208110630780138616698800, 208121325429649346505600,
  208130988700066347858100, 208171325429649346505600, 208180692993753108374500, 208201058014784403852600, 208260682861742496292300,
  208281068934713600352000, 208370770716782885423200, 208390619596835600354500, 208400682377088882039400, 208410854928097250724800,
  208430841405418529748000, 208440425245739606621200, 208451085640122066668500, 208480715847193103283100, 208490721523296755779400,
  208510703072865367139150, 208520900580125141569700, 208530700915919000804100, 208540811263293696239500, 208550889119786867669300,
  208560793863048858240550, 208590727541072856393400, 208611130838634440974200, 208690619596835600354500, 208721284883138535689200,
  208740898459904376509400, 208760898459904376509400, 208771233800576159090000, 208821030985751429861500, 208851154954840122663000,
  208890983656980985168900, 208910755888226847937100, 208920755888226847937100, 208961003542066859685500, 209081111423032996878400,
  209120875448682313479000, 209140923791347271266600, 209150792157770019968700, 209171105707191612883600, 209190940414889175499600,
  209230947010685954679400, 209280842999077756029400, 209340789065966079637600, 209371039209561253558800, 209410947010685954679400,
  209431130838634440974200, 209570731940229784546800, 209601186800213234516500, 209611394744367402500100, 209640994011048879253000,
  209731256114931290511000, 209751256114931290511000, 209761215568420479694600, 209771256114931290511000, 209841325429649346505600,
  209860745066868383913850, 209870602627095243798600, 209890992209198328985100, 209920962995556048869000, 209931284883138535689200,
  209950968476379698368500, 209980531051380100643000, 209990944763400369473600, 210021051345646953985400, 210051154954840122663000,
  210091009729607231494200, 210100788365846533739200, 210150712415755166931400, 210170977305640412936300, 210180825708421970094000,
  210190847098012209349000, 210211007624266311711000, 210280800990746894257400, 210290841010940700646400, 210321284883138535689200,
  210330511631603901291700, 210350841010940700646400, 210381061523916384979700, 210401123939347292279000, 210460639783450887046900,
  210470813930118404455700, 210480641321534775091100, 210500974275105463403400, 210510904960387407408900, 210581023387160732069400,
  210591394744367402500100, 210630977305640412936300, 210660912716210841996300, 210690899868378364683300, 210731215568420479694600,
  210780854476629215272000, 210830825708421970094000, 210950743125059798203700, 211030928400457991293300, 211060972793596884889500,
  211090847098012209349000, 211230788365846533739200, 211270743125059798203700, 211331215568420479694600, 211371023387160732069400,
  211470589419252047590400, 211500763752539579848400, 211510708573233354427100, 211520653951935146540200, 211530524443503656055300,
  211600409519678568246900, 211610821087137654580900, 211621325429649346505600, 211631028388202789535400, 211691095171140047101000,
  211701009729607231494200, 211710892356315317872500, 211830875448682313479000, 211851009729607231494200, 211910972793596884889500,
  212020927461483956309400, 212050409519678568246900, 212081105707191612883600, 212090524443503656055300, 212130654134029278798600,
  212140892356315317872500, 212151186800213234516500, 212180875448682313479000, 212200952860306622840300, 212371095171140047101000,
  212421325429649346505600, 212530771499565747447800, 212641117485495178522000, 212700506297195588584000, 212710723935959017193100,
  212731117485495178522000, 212801011880227753590600, 212830995845962746072600, 212901394744367402500100, 212950769940079951657200,
  213050969894843197564200, 213060745672013952249400, 213070774896495753269300, 213111284883138535689200, 213120745672013952249400,
  213130858146765900314900, 213151076938984367705600, 213190678815176922743650, 213200899161661642374000, 213211256114931290511000,
  213220722481387916955200, 213260619039253199298700, 213270891049107161137100, 213291105707191612883600, 213320891049107161137100,
  213330956541703935112000, 213340799420033973721600, 213350639783450887046900, 213380807814676089122600, 213400856754632048454000,
  213440801519848657699000, 213450863917597662379700, 213461085640122066668500, 213481164485858103095600, 213500982030928897990800,
  213511215568420479694600, 213550657030996119104700, 213600836019501562475000, 213611233800576159090000, 213640980430894763346700,
  213650848361186899939100, 213670967077755500894500, 213681009729607231494200, 213691058014784403852600, 213710980430894763346700,
  213780817912267823122900, 213820957799582155797900, 213870726033506615848600, 213881256114931290511000, 213971215568420479694600,
  214001256114931290511000, 214021020977405574163300, 214070708468576097359900, 214131154954840122663000, 214211256114931290511000]

def emitM25_1 : List Nat := [
  214351020977405574163300, 214390955299451935256300, 214420834902171502662700, 214430834902171502662700, 214490743569834438027300,
  214500907990922356941800, 214510986990623011928200, 214521325429649346505600, 214530725412000575505200, 214570558924621409922100,
  214601072856784915680000, 214620930305277488362800, 214630809811889407814000, 214640851809804507056000, 214651111423032996878400,
  214671090292123630157800, 214720978856059066532900, 214741007624266311711000, 214750587404070503859500, 214760622388120174703100,
  214771284883138535689200, 214821284883138535689200, 214830911116176707352200, 214840939356678242446000, 214850902746274819687500,
  214870767645524216670200, 214880765033435409106500, 214900653528333907979600, 214910922005585531266000, 214940651023730715370800,
  214950804754632044250900, 214960688696730802519900, 214970960363825217131700, 215051186800213234516500, 215070974275105463403400,
  215081154954840122663000, 215120505442017963029000, 215131016325404010674000, 215141154954840122663000, 215160653649179844136400,
  215170720574297937294600, 215180822713189741758900, 215200836019501562475000, 215210693622968667463400, 215231081194945809585100,
  215271394744367402500100, 215310969894843197564200, 215341154954840122663000, 215371394744367402500100, 215421233800576159090000,
  215431284883138535689200, 215440835645669351414400, 215451394744367402500100, 215471130838634440974200, 215480965698423287661000,
  215531284883138535689200, 215571164485858103095600, 215581164485858103095600, 215600772090700473753500, 215611081194945809585100,
  215631256114931290511000, 215641200153352496968800, 215681154954840122663000, 215740968476379698368500, 215780694528771962138000,
  215791100300469485856000, 215841164485858103095600, 215920508227325437322700, 216041394744367402500100, 216080570732237594852900,
  216190810100489896727700, 216280910325658756641000, 216290661311432372446450, 216341146253702423700100, 216440612740568456624800,
  216471394744367402500100, 216611284883138535689200, 216711325429649346505600, 216741325429649346505600, 216761138249431656346500,
  216791284883138535689200, 216831186800213234516500, 216931090292123630157800, 216970604163336136606900, 217031020977405574163300,
  217040833431556763693100, 217081186800213234516500, 217090678117769989136200, 217131065160680802067200, 217290508227325437322700,
  217330858146765900314900, 217361200153352496968800, 217371325429649346505600, 217421175021909668878100, 217661130838634440974200,
  217671005562337591437400, 217760985309911180290000, 217771117485495178522000, 217961233800576159090000, 218060653226856441170600,
  218070828101698591256900, 218090829145186320514900, 218300683919953429346000, 218390902018998886779700, 218541065160680802067200,
  218570846264674053434600, 218601138249431656346500, 218621233800576159090000, 218631325429649346505600, 218681130838634440974200,
  218781325429649346505600, 218911085640122066668500, 218921007624266311711000, 218950943658416750815100, 218971045093611255852100,
  218980937273269552161800, 218991215568420479694600, 219120995845962746072600, 219141233800576159090000, 219160986990623011928200,
  219171051345646953985400, 219301175021909668878100, 219340956541703935112000, 219371325429649346505600, 219431100300469485856000,
  219591130838634440974200, 219661394744367402500100, 219711090292123630157800, 219941284883138535689200, 220131394744367402500100,
  220220960363825217131700, 220251200153352496968800, 220281105707191612883600, 220381325429649346505600, 220401123939347292279000,
  220430924696330823258500, 220551054624629236284500, 220651164485858103095600, 220680995845962746072600, 220991123939347292279000,
  221091284883138535689200, 221200736680453674005200, 221221284883138535689200, 221321100300469485856000, 221341033652576138077700,
  221360835645669351414400, 221391394744367402500100, 221511081194945809585100, 221791256114931290511000, 221961090292123630157800,
  222041256114931290511000, 222101256114931290511000, 222180934227348803691000, 222251164485858103095600, 222341164485858103095600,
  222350763752539579848400, 222380872708784894667600, 222400990439240619045000, 222420673073418731554350, 222530827412040685350900,
  222560909541341010538300, 222600971333716942774200, 222660770133690854343800, 222690498223687125464300, 222700878265770010148600,
  222751394744367402500100, 222780750331241732456000, 222800934227348803691000, 222830498223687125464300, 222850971333716942774200,
  222900827412040685350900, 222910750331241732456000, 222940878265770010148600, 222960673073418731554350, 223030763027898727771700,
  223071072856784915680000, 223120699567150962608950, 223171146253702423700100, 223200659885614309740800, 223231200153352496968800,
  223300636216259538587500, 223340906464175143863000, 223361325429649346505600, 223430752907873808878900, 223461154954840122663000,
  223501154954840122663000, 223510893016383721007600, 223520933232315718374200, 223531256114931290511000, 223591081194945809585100,
  223621001561804130067500, 223631256114931290511000, 223651076938984367705600, 223671325429649346505600, 223681068934713600352000,
  223690880578011752234000, 223740857216526634083600, 223761325429649346505600, 223831100300469485856000, 223911138249431656346500,
  224020983656980985168900, 224041111423032996878400, 224110772090700473753500, 224181130838634440974200, 224271111423032996878400,
  224381105707191612883600, 224410855381612767264000, 224430972793596884889500, 224671233800576159090000, 224751130838634440974200,
  224780766892224985915600, 224841256114931290511000, 224950803394066838673000, 225190903478878828895000, 225211215568420479694600,
  225220671038464790026400, 225300994011048879253000, 225331001561804130067500, 225380855381612767264000, 225451394744367402500100,
  225611164485858103095600, 225770725535993151837200, 225800636216259538587500, 225811284883138535689200, 226021081194945809585100,
  226041394744367402500100, 226090846264674053434600, 226121020977405574163300, 226150952860306622840300, 226220884757724620080300,
  226351233800576159090000, 226450985309911180290000, 226491394744367402500100, 226590879994919721154800, 226611100300469485856000,
  226660972793596884889500, 226750809524119425052600, 226811058014784403852600, 226841068934713600352000, 226860978856059066532900,
  226960962995556048869000, 226971284883138535689200, 227071325429649346505600, 227181105707191612883600, 227210922894480272990600,
  227271256114931290511000, 227371117485495178522000, 227390726033506615848600, 227441130838634440974200, 227500893016383721007600,
  227511111423032996878400, 227560948153555537041700, 227611076938984367705600, 227630759655795731026100, 227660944763400369473600,
  227670944763400369473600, 227680774490815683707800, 227710874343698694820600, 227810899868378364683300, 227880878265770010148600,
  227910655911581444789400, 227970846264674053434600, 227991011880227753590600, 228051233800576159090000, 228060693893849194272100,
  228100922894480272990600, 228120951662687518168800, 228180935232382389041000, 228210703569637377332700, 228230576042260668149600,
  228250646139105616186000, 228260569996166973930800, 228270794602879606385050, 228300677655519551249500, 228311325429649346505600,
  228330917675904955933700, 228360645190173014074500, 228401200153352496968800, 228411111423032996878400, 228420763389562774790500,
  228461111423032996878400, 228550893680837992874500, 228571146253702423700100, 228590881164523697473900, 228630774693449998231000,
  228651081194945809585100, 228700856294861123591200, 228710949309637777149400, 228851164485858103095600, 228871164485858103095600,
  228900763389562774790500, 228940881164523697473900, 228990774288591145631100, 229000846264674053434600, 229020839061561232546400,
  229041068934713600352000, 229090854476629215272000, 229141215568420479694600, 229151175021909668878100, 229180793128651432664700,
  229190951662687518168800, 229200849212255866730000, 229301394744367402500100, 229341081194945809585100, 229371284883138535689200,
  229410793128651432664700, 229421186800213234516500, 229491256114931290511000, 229581215568420479694600, 229690990439240619045000,
  229710879994919721154800, 229820951662687518168800, 229861284883138535689200, 229870681334995283213500, 229921068934713600352000,
  229930793372851798219900, 229951054624629236284500, 229960640523021083159800, 230021065160680802067200, 230141068934713600352000,
  230161039209561253558800, 230350972793596884889500, 230391200153352496968800, 230410824033340927612600, 230430948153555537041700,
  230471394744367402500100, 230640858615150831557500, 230671186800213234516500, 230811186800213234516500, 230891186800213234516500,
  231001394744367402500100, 231100822713189741758900, 231300838676204300947200, 231420951662687518168800, 231561030985751429861500,
  231581068934713600352000, 231860900580125141569700, 232190834164160772900400, 232290849212255866730000, 232331130838634440974200,
  232341009729607231494200, 232731164485858103095600, 233081394744367402500100, 233441030985751429861500, 233521068934713600352000,
  233760515292182223647400, 233800960363825217131700, 233810889758766677546300, 233830642450275595263100, 233840782714625507405100,
  233850879415207952722300, 233891186800213234516500, 233911117485495178522000, 233941233800576159090000, 233950907990922356941800,
  233980416855608972220300, 234010678195019896415500, 234030879415207952722300, 234160416855608972220300, 234250876566012373291600,
  234290876566012373291600, 234320791196224150024500, 234330653891310713037500, 234351215568420479694600, 234471394744367402500100,
  234480917675904955933700, 234490859085739935298800, 234500544050285907311400, 234511164485858103095600, 234521095171140047101000,
  234530789771021879304300, 234540698614762811483400, 234570886603930904053800, 234580858146765900314900, 234601081194945809585100,
  234660876566012373291600, 234670907224635082385000, 234700907224635082385000, 234721016325404010674000, 234750753398471685764400,
  234780601651830154161300, 234810738924587121273200, 234860875448682313479000, 234871030985751429861500, 234901233800576159090000,
  234921020977405574163300, 234940721285201405205300, 235000931271468579536500, 235060939356678242446000, 235071138249431656346500,
  235190614933104519521300, 235211068934713600352000, 235260698614762811483400, 235270876566012373291600, 235281123939347292279000,
  235290886603930904053800, 235310983656980985168900, 235420789771021879304300, 235441200153352496968800, 235450659756996928666300]

def emitM25_2 : List Nat := [
  235480534922364396639000, 235510899868378364683300, 235530903478878828895000, 235560601544052166361600, 235580776123505012450700,
  235590776123505012450700, 235601068934713600352000, 235620920251154566175000, 235650659756996928666300, 235660534922364396639000,
  235670642072611267229500, 235690767268165278306200, 235720716072672341992000, 235740882944986160824600, 235760985309911180290000,
  235781175021909668878100, 235881215568420479694600, 236010994011048879253000, 236080995845962746072600, 236101051345646953985400,
  236120760180731319640500, 236140768977608614236200, 236150691481941299699400, 236160914342262929174500, 236171164485858103095600,
  236180816054629265829200, 236210819487103519936800, 236241325429649346505600, 236271065160680802067200, 236290995845962746072600,
  236301284883138535689200, 236330863423769498321300, 236370708364028257204700, 236460764849442716905800, 236480964337858082083200,
  236520816054629265829200, 236531175021909668878100, 236600764849442716905800, 236650665442599425221900, 236811005562337591437400,
  237030736127201917032600, 237070805028980638826000, 237131284883138535689200, 237211105707191612883600, 237250856754632048454000,
  237360758441557048453600, 237770945880730429286100, 237920839836758912978200, 237980805028980638826000, 238031215568420479694600,
  238050945880730429286100, 238301325429649346505600, 238310736127201917032600, 238331051345646953985400, 238491095171140047101000,
  238691009729607231494200, 238831233800576159090000, 238841048170777122527400, 239940856754632048454000, 240291009729607231494200,
  240300827756275104448100, 240341039209561253558800, 240370530379405865620400, 240391054624629236284500, 240401007624266311711000,
  240461020977405574163300, 240490961671033373867000, 240501045093611255852100, 240520720692431441877700, 240551105707191612883600,
  240621090292123630157800, 240650816979135080234400, 240660656968476579712850, 240670677042490811510100, 240690877695967898684900,
  240701018624355833143900, 240720815443006564085800, 240801394744367402500100, 240861284883138535689200, 240880925609579179585800,
  240901164485858103095600, 240930740497171351819600, 241010877695967898684900, 241020735303021427522200, 241070815443006564085800,
  241090797873611403963500, 241100971333716942774200, 241151394744367402500100, 241180735303021427522200, 241191284883138535689200,
  241200736127201917032600, 241250961671033373867000, 241321284883138535689200, 241490826046831768518000, 241630816979135080234400,
  241710971333716942774200, 241780758786980535262300, 241790647153770465760400, 241800616923219951250800, 241820935232382389041000,
  241841284883138535689200, 241850758786980535262300, 241871100300469485856000, 241880919385348291863600, 241891117485495178522000,
  241901186800213234516500, 241911072856784915680000, 241961033652576138077700, 241981085640122066668500, 241991394744367402500100,
  242021023387160732069400, 242070909541341010538300, 242110921124522563050400, 242120628215895555365000, 242130816979135080234400,
  242150999619995544357400, 242171394744367402500100, 242181175021909668878100, 242200744765663336914700, 242230952860306622840300,
  242300672926683562159300, 242310978856059066532900, 242350921124522563050400, 242370815443006564085800, 242461256114931290511000,
  242470945880730429286100, 242481215568420479694600, 242571215568420479694600, 242871394744367402500100, 242880817912267823122900,
  242900952860306622840300, 242911072856784915680000, 243101154954840122663000, 243111072856784915680000, 243140706398108761190800,
  243200829145186320514900, 243220807814676089122600, 243230955299451935256300, 243281085640122066668500, 243301175021909668878100,
  243350860510942206019000, 243391123939347292279000, 243410688610930711456300, 243431233800576159090000, 243510929348332386747700,
  243520836394736524330200, 243570861956750523542000, 243580841405418529748000, 243591111423032996878400, 243611007624266311711000,
  243671061523916384979700, 243690990439240619045000, 243730836394736524330200, 243750859085739935298800, 243770765958511386321650,
  243780859085739935298800, 243920765958511386321650, 243960861956750523542000, 243981061523916384979700, 244020854928097250724800,
  244030997715176047287900, 244050797363406215574000, 244071061523916384979700, 244180765033435409106500, 244250931271468579536500,
  244321164485858103095600, 244330705785236567053500, 244410910325658756641000, 244490789065966079637600, 244521054624629236284500,
  244530784265044161001600, 244590782495086451061450, 244600822713189741758900, 244651054624629236284500, 244661175021909668878100,
  244710669185239977133600, 244781085640122066668500, 244810786522476364855500, 244900899868378364683300, 244940788598675509698400,
  245010789065966079637600, 245030922005585531266000, 245091394744367402500100, 245150622609506140705100, 245170939356678242446000,
  245180830199677638176300, 245241025856421991106500, 245251154954840122663000, 245350796350739333781000, 245360867444411546125400,
  245371200153352496968800, 245511256114931290511000, 245551054624629236284500, 245650633956560074649300, 245770761594182413131000,
  245941394744367402500100, 245980932247086074073000, 246041033652576138077700, 246050673588694071119900, 246131076938984367705600,
  246150673073418731554350, 246161130838634440974200, 246350681654484372865350, 246460909541341010538300, 246511061523916384979700,
  246580909541341010538300, 246761058014784403852600, 246771065160680802067200, 246801284883138535689200, 246810933232315718374200,
  246870691835610987533800, 246941085640122066668500, 247081045093611255852100, 247091394744367402500100, 247241081194945809585100,
  247351394744367402500100, 247361284883138535689200, 247391036392473556889000, 247421394744367402500100, 247481100300469485856000,
  247640943658416750815100, 247730755552656063239900, 247781215568420479694600, 247850980430894763346700, 247891033652576138077700,
  248000911116176707352200, 248011085640122066668500, 248071014078118425468100, 248091394744367402500100, 248111325429649346505600,
  248150921124522563050400, 248190755888226847937100, 248401123939347292279000, 248470680145920631061300, 248591325429649346505600,
  248630759481427770543400, 248681117485495178522000, 248950757241885419690400, 249070761594182413131000, 249080942565509697596000,
  249131051345646953985400, 249301018624355833143900, 249310921124522563050400, 249421100300469485856000, 249441175021909668878100,
  249501085640122066668500, 249621256114931290511000, 249701325429649346505600, 249761033652576138077700, 249771256114931290511000,
  249961117485495178522000, 250100876566012373291600, 250140830199677638176300, 250261394744367402500100, 250330628215895555365000,
  250741394744367402500100, 250801100300469485856000, 250841014078118425468100, 250861051345646953985400, 250881061523916384979700,
  250961186800213234516500, 250980994011048879253000, 251001090292123630157800, 251011154954840122663000, 251030975778893199857600,
  251040647380656552879500, 251050961671033373867000, 251060927461483956309400, 251120664967539149362100, 251140997715176047287900,
  251151003542066859685500, 251191039209561253558800, 251300992209198328985100, 251360664967539149362100, 251380975778893199857600,
  251401325429649346505600, 251420761416404588531000, 251430761416404588531000, 251510742535087585484800, 251520804481034062363400,
  251531284883138535689200, 251591325429649346505600, 251630677578685125648600, 251651033652576138077700, 251661146253702423700100,
  251690964337858082083200, 251710948153555537041700, 251760696922993139430250, 251871111423032996878400, 251910903478878828895000,
  251931061523916384979700, 251951215568420479694600, 251961146253702423700100, 252000941484418087174500, 252060950479241753468400,
  252090964337858082083200, 252150752419671049148100, 252160640152552281567800, 252200997715176047287900, 252260861956750523542000,
  252331200153352496968800, 252371036392473556889000, 252390817912267823122900, 252400849212255866730000, 252421123939347292279000,
  252501154954840122663000, 252520581650137179312300, 252530725535993151837200, 252601200153352496968800, 252760899161661642374000,
  252850924696330823258500, 252860980430894763346700, 252870834902171502662700, 252890626958017334679000, 252920999619995544357400,
  252930937273269552161800, 252961100300469485856000, 252990931271468579536500, 253001146253702423700100, 253020950479241753468400,
  253071009729607231494200, 253080934227348803691000, 253111076938984367705600, 253151256114931290511000, 253201039209561253558800,
  253210800202306541842600, 253240974275105463403400, 253291081194945809585100, 253311105707191612883600, 253400990439240619045000,
  253430968476379698368500, 253450682699930163251300, 253461215568420479694600, 253510712524628340451000, 253531130838634440974200,
  253661394744367402500100, 253711085640122066668500, 253771215568420479694600, 253810673588694071119900, 253910866423994528701200,
  254141325429649346505600, 254241186800213234516500, 254291061523916384979700, 254381105707191612883600, 254390924696330823258500,
  254420859558554054893500, 254491284883138535689200, 254540675150644754943100, 254631123939347292279000, 254671325429649346505600,
  254751215568420479694600, 254801138249431656346500, 254840961671033373867000, 254901085640122066668500, 254960870569665896535800,
  254991215568420479694600, 255041042108314940883900, 255050904960387407408900, 255060924696330823258500, 255090802051764805459000,
  255110884757724620080300, 255120895701108724626500, 255141325429649346505600, 255281146253702423700100, 255361256114931290511000,
  255510982030928897990800, 255520718587090522094500, 255541154954840122663000, 255621146253702423700100, 255630859558554054893500,
  255691256114931290511000, 255820673588694071119900, 255880994011048879253000, 256130924696330823258500, 256151076938984367705600,
  256201394744367402500100, 256221394744367402500100, 256451100300469485856000, 256541154954840122663000, 256581284883138535689200,
  256681175021909668878100, 256701394744367402500100, 256711394744367402500100, 256740974275105463403400, 256881325429649346505600,
  257051048170777122527400, 257201117485495178522000, 257350994011048879253000, 257361105707191612883600, 257440949309637777149400,
  257450949309637777149400, 257461090292123630157800, 257581042108314940883900, 257631146253702423700100, 257651039209561253558800,
  257711123939347292279000, 257730829846943586379600, 257761256114931290511000, 257780964337858082083200, 257881154954840122663000]

def emitM25_3 : List Nat := [
  257990800202306541842600, 258020602627095243798600, 258031215568420479694600, 258050936247619535442900, 258061154954840122663000,
  258120924696330823258500, 258180675150644754943100, 258300902746274819687500, 258361076938984367705600, 258441061523916384979700,
  258501394744367402500100, 258540941484418087174500, 258841284883138535689200, 258851175021909668878100, 258911085640122066668500,
  258920974275105463403400, 259030814230870510851200, 259100642558442182337150, 259130997715176047287900, 259150881164523697473900,
  259180602954308769708500, 259190483802922063877900, 259251105707191612883600, 259280669893960165439050, 259321123939347292279000,
  259350810100489896727700, 259370934227348803691000, 259430919385348291863600, 259441111423032996878400, 259450640099740027897700,
  259541186800213234516500, 259550791196224150024500, 259680631989928353649700, 259720881164523697473900, 259731123939347292279000,
  259751215568420479694600, 259760631989928353649700, 259910587685013407548200, 260010928400457991293300, 260070658099852569740100,
  260090733271807382124000, 260121018624355833143900, 260201065160680802067200, 260211138249431656346500, 260230990439240619045000,
  260251394744367402500100, 260281394744367402500100, 260290813033251406179700, 260310733809443085762100, 260320678970818977509400,
  260390813033251406179700, 260410619769026775056400, 260440962995556048869000, 260451138249431656346500, 260491068934713600352000,
  260511090292123630157800, 260531130838634440974200, 260590785161911159277600, 260630699854645171168900, 260711081194945809585100,
  260800931271468579536500, 260850756901749037341400, 260861007624266311711000, 260870956541703935112000, 260881130838634440974200,
  260970914342262929174500, 261020662956747539850500, 261240954072442676074800, 261260645079123585671800, 261271394744367402500100,
  261310491958487164413800, 261430772486740595363200, 261440938309548255716500, 261490939356678242446000, 261511117485495178522000,
  261591175021909668878100, 261740940414889175499600, 261780662956747539850500, 261791394744367402500100, 261941100300469485856000,
  261951164485858103095600, 261971284883138535689200, 262021111423032996878400, 262120982030928897990800, 262220790243835998898900,
  262230736680453674005200, 262241020977405574163300, 262300718587090522094500, 262340923791347271266600, 262481284883138535689200,
  262571081194945809585100, 262620955299451935256300, 262631054624629236284500, 262801256114931290511000, 262861284883138535689200,
  262920929348332386747700, 263131164485858103095600, 263481100300469485856000, 263540749697325188082400, 263551256114931290511000,
  263561164485858103095600, 263600559654122233019000, 263640891049107161137100, 263671164485858103095600, 263710502932901455047200,
  263760813033251406179700, 263770545967929329957500, 263790761061794287856000, 263810815138592325962800, 263911081194945809585100,
  263950811849805641479300, 263970997715176047287900, 263990694893403177439950, 264071325429649346505600, 264080774288591145631100,
  264101039209561253558800, 264110997715176047287900, 264120476694414405983900, 264150601795715071071150, 264171325429649346505600,
  264211117485495178522000, 264260600082611078052800, 264291200153352496968800, 264320959073484733540800, 264340818225257124015600,
  264350677348535426820700, 264380938309548255716500, 264410990439240619045000, 264460917675904955933700, 264470985309911180290000,
  264480681494612236495700, 264490948153555537041700, 264620995845962746072600, 264630840618012886657500, 264650752257465011961300,
  264690760005446436899050, 264720922005585531266000, 264790980430894763346700, 264810760180731319640500, 264871256114931290511000,
  264940934227348803691000, 264950709625874653125800, 264970694165465477149800, 265000688696730802519900, 265051061523916384979700,
  265120601149857067130000, 265190728814975434136300, 265220997715176047287900, 265240770716782885423200, 265250942565509697596000,
  265300835273229442316100, 265311215568420479694600, 265380907224635082385000, 265431068934713600352000, 265500897070993160442700,
  265751325429649346505600, 265790692457558794235900, 265801154954840122663000, 265880929348332386747700, 265970766330951295419900,
  266071215568420479694600, 266090828796145826538000, 266111095171140047101000, 266121045093611255852100, 266131068934713600352000,
  266291068934713600352000, 266310682457701542591800, 266390962995556048869000, 266410840226622954543800, 266431154954840122663000,
  266461138249431656346500, 266471200153352496968800, 266570782276028313079600, 266790821087137654580900, 266800820444048621552000,
  266810915165312842826000, 266840767834739031874000, 266901186800213234516500, 266910866423994528701200, 266941085640122066668500,
  266960792399608106396800, 267001030985751429861500, 267040971333716942774200, 267051076938984367705600, 267091284883138535689200,
  267251076938984367705600, 267261100300469485856000, 267291325429649346505600, 267421256114931290511000, 267431394744367402500100,
  267510938309548255716500, 267530941484418087174500, 267571023387160732069400, 267580964337858082083200, 267750907224635082385000,
  267810752257465011961300, 267861394744367402500100, 267900935232382389041000, 267911154954840122663000, 267921065160680802067200,
  267971175021909668878100, 267990909541341010538300, 268000796602946277052000, 268031325429649346505600, 268051256114931290511000,
  268160927461483956309400, 268200955299451935256300, 268250968476379698368500, 268271138249431656346500, 268290962995556048869000,
  268341068934713600352000, 268371105707191612883600, 268391215568420479694600, 268401233800576159090000, 268421325429649346505600,
  268481081194945809585100, 268621284883138535689200, 268651016325404010674000, 268661138249431656346500, 268851090292123630157800,
  268930720220732454063800, 268940982030928897990800, 268980990439240619045000, 269281100300469485856000, 269431164485858103095600,
  269461175021909668878100, 269540922005585531266000, 269701072856784915680000, 269731081194945809585100, 269741130838634440974200,
  269890375345303185039000, 269970694165465477149800, 270040951662687518168800, 270120848361186899939100, 270160846264674053434600,
  270361394744367402500100, 270511325429649346505600, 270540936247619535442900, 270600792642032467547400, 270671200153352496968800,
  270830688696730802519900, 270850907224635082385000, 270991164485858103095600, 271031045093611255852100, 271331111423032996878400,
  271351325429649346505600, 271371325429649346505600, 271380616547043959061600, 271550951662687518168800, 271610682457701542591800,
  271660835273229442316100, 271690982030928897990800, 271710821087137654580900, 271780985309911180290000, 271851233800576159090000,
  271930840226622954543800, 271941100300469485856000, 272041068934713600352000, 272111076938984367705600, 272310600082611078052800,
  272330858615150831557500, 272430985309911180290000, 272641036392473556889000, 272801233800576159090000, 272980927461483956309400,
  273080930305277488362800, 273151045093611255852100, 273231164485858103095600, 273310929348332386747700, 273540846264674053434600,
  273871233800576159090000, 273960962995556048869000, 274020677348535426820700, 274140848361186899939100, 274250955299451935256300,
  274260944763400369473600, 274310822713189741758900, 274421039209561253558800, 274540757754269119677400, 274630843401492786002000,
  274681036392473556889000, 274720822713189741758900, 274890944763400369473600, 274900914342262929174500, 274910807251294317297000,
  274930736265228163928400, 274940666537001593153600, 274951215568420479694600, 275061005562337591437400, 275110957799582155797900,
  275120854928097250724800, 275150633609595662138000, 275300871100171119505000, 275311030985751429861500, 275420704973873089636500,
  275441030985751429861500, 275730729458064467165400, 275780959073484733540800, 275800874343698694820600, 275841284883138535689200,
  275851284883138535689200, 275970738358814749287350, 276020785161911159277600, 276040838292326670230800, 276051325429649346505600,
  276110761061794287856000, 276171215568420479694600, 276311154954840122663000, 276561215568420479694600, 276631011880227753590600,
  276650406257844561696800, 276671186800213234516500, 276680607957218362867900, 276701325429649346505600, 276790926531244690078100,
  276820892356315317872500, 276830607957218362867900, 276870626726803358841100, 276880805579946219923000, 276910892356315317872500,
  276940990439240619045000, 276950845850594786831400, 276961025856421991106500, 277000525797926166831000, 277121394744367402500100,
  277131076938984367705600, 277140783376149419276900, 277190769940079951657200, 277210930305277488362800, 277281036392473556889000,
  277350959073484733540800, 277391325429649346505600, 277430873250791641601500, 277440948153555537041700, 277450837528964184723500,
  277481058014784403852600, 277601065160680802067200, 277700792157770019968700, 277730781839346396445600, 277781284883138535689200,
  277941215568420479694600, 278010775917955094241100, 278071072856784915680000, 278091215568420479694600, 278131284883138535689200,
  278190992209198328985100, 278251284883138535689200, 278270764665787936175700, 278330649562143749707100, 278350521530040632308200,
  278371100300469485856000, 278391284883138535689200, 278411105707191612883600, 278440969894843197564200, 278490868475348512011500,
  278501105707191612883600, 278520808381249842690300, 278601394744367402500100, 278610651555175721720000, 278631072856784915680000,
  278671011880227753590600, 278731045093611255852100, 278740787209764293631700, 278751039209561253558800, 278770827412040685350900,
  278800836394736524330200, 278821076938984367705600, 278881058014784403852600, 278910910325658756641000, 278991186800213234516500,
  279001325429649346505600, 279010801519848657699000, 279021175021909668878100, 279050862443369488659300, 279150711011085933940900,
  279270983656980985168900, 279310913525931865258300, 279340962995556048869000, 279411051345646953985400, 279450969894843197564200,
  279460917675904955933700, 279531009729607231494200, 279540719751248023643100, 279630701890585586033500, 279641045093611255852100,
  279651256114931290511000, 279660849212255866730000, 279690609539346675911100, 279740907224635082385000, 279751018624355833143900,
  279781164485858103095600, 279790726283194635707400, 279820494992530429115600, 279870980430894763346700, 280031394744367402500100,
  280091011880227753590600, 280100837149457087868500, 280140931271468579536500, 280201233800576159090000, 280230755888226847937100]

def emitM25_4 : List Nat := [
  280241256114931290511000, 280340952860306622840300, 280391175021909668878100, 280400817600255089498500, 280410961671033373867000,
  280461138249431656346500, 280651394744367402500100, 280680980430894763346700, 280700669255886394766300, 280721186800213234516500,
  280731394744367402500100, 280820961671033373867000, 280851256114931290511000, 280921039209561253558800, 280961033652576138077700,
  281031085640122066668500, 281071394744367402500100, 281201215568420479694600, 281221076938984367705600, 281291394744367402500100,
  281360842999077756029400, 281451072856784915680000, 281511284883138535689200, 281650858615150831557500, 281731233800576159090000,
  281801154954840122663000, 281831045093611255852100, 281871130838634440974200, 281920994011048879253000, 281930800464429889830000,
  281951100300469485856000, 281981394744367402500100, 282010801519848657699000, 282040726283194635707400, 282070829846943586379600,
  282160673146867137353500, 282460885369347321823800, 282711058014784403852600, 282861023387160732069400, 282870848361186899939100,
  282911020977405574163300, 282971039209561253558800, 283040736958231630395400, 283100789065966079637600, 283161325429649346505600,
  283171072856784915680000, 283221123939347292279000, 283301072856784915680000, 283310801519848657699000, 283420793128651432664700,
  283570892356315317872500, 283630770522040856983550, 283640980430894763346700, 283690793617649962083950, 283781076938984367705600,
  283821018624355833143900, 283850955299451935256300, 283880951662687518168800, 283921186800213234516500, 283931111423032996878400,
  283991018624355833143900, 284021045093611255852100, 284041023387160732069400, 284141076938984367705600, 284150955299451935256300,
  284171154954840122663000, 284181284883138535689200, 284221186800213234516500, 284311325429649346505600, 284360825035018751959700,
  284480990439240619045000, 284500930305277488362800, 284590776329478308751800, 284601233800576159090000, 284651256114931290511000,
  284661186800213234516500, 284790907224635082385000, 284971325429649346505600, 285000862443369488659300, 285070771107408382129660,
  285080771107408382129660, 285160669255886394766300, 285251215568420479694600, 285260977305640412936300, 285281020977405574163300,
  285441394744367402500100, 285501018624355833143900, 285721394744367402500100, 285771076938984367705600, 285800801519848657699000,
  286080760708437029724800, 286091164485858103095600, 286110980430894763346700, 286290848361186899939100, 286390494992530429115600,
  286571186800213234516500, 286700951662687518168800, 286811186800213234516500, 287011284883138535689200, 287341394744367402500100,
  287481048170777122527400, 287601111423032996878400, 287711023387160732069400, 287790713840436798202100, 287810892356315317872500,
  287830967077755500894500, 287840678349698968245400, 287890906464175143863000, 287921068934713600352000, 287961111423032996878400,
  287970933232315718374200, 287980933232315718374200, 288091042108314940883900, 288141117485495178522000, 288181233800576159090000,
  288441233800576159090000, 288450870041960186451400, 288460921124522563050400, 288560743867453705331900, 288570823371086851563100,
  288580891049107161137100, 288600941484418087174500, 288610943658416750815100, 288661146253702423700100, 288721154954840122663000,
  288791146253702423700100, 288891394744367402500100, 288950797109276472706700, 289001146253702423700100, 289021095171140047101000,
  289030844211213809263800, 289090630491953979209900, 289110893680837992874500, 289191146253702423700100, 289381146253702423700100,
  289610931271468579536500, 289660933232315718374200, 289760941484418087174500, 289820535607108443451200, 290010941484418087174500,
  290040974275105463403400, 290061186800213234516500, 290170797109276472706700, 290280905709454580324700, 290310831982256033436400,
  290331095171140047101000, 290601186800213234516500, 290660854476629215272000, 290761325429649346505600, 290870895023140026088600,
  290961058014784403852600, 291050630491953979209900, 291180943658416750815100, 291230805304083976015000, 291280967077755500894500,
  291380844211213809263800, 291411175021909668878100, 291510639678243091966500, 291571117485495178522000, 291900912716210841996300,
  292001042108314940883900, 292111146253702423700100, 292261130838634440974200, 292281175021909668878100, 292290659756996928666300,
  292331325429649346505600, 292380917675904955933700, 292390897070993160442700, 292420897070993160442700, 292451325429649346505600,
  292460716072672341992000, 292541058014784403852600, 292550842199073489321700, 292560735714262582831500, 292600926531244690078100,
  292611325429649346505600, 292721325429649346505600, 292730760884959582181800, 292750852249365654359900, 292790936247619535442900,
  292821100300469485856000, 292870681016523676461500, 292890509721270843618500, 292951284883138535689200, 292980921124522563050400,
  293050727921542560759800, 293121130838634440974200, 293131025856421991106500, 293221146253702423700100, 293461146253702423700100,
  293560906464175143863000, 293591016325404010674000, 293660735439913988256400, 293681058014784403852600, 293691233800576159090000,
  293760735439913988256400, 293781146253702423700100, 293921014078118425468100, 293991154954840122663000, 294201054624629236284500,
  294221090292123630157800, 294251175021909668878100, 294321033652576138077700, 294360935232382389041000, 294540985309911180290000,
  294811020977405574163300, 294820997715176047287900, 294831284883138535689200, 294860845850594786831400, 294920910325658756641000,
  294941233800576159090000, 295031014078118425468100, 295051058014784403852600, 295081175021909668878100, 295091090292123630157800,
  295180856294861123591200, 295201325429649346505600, 295441054624629236284500, 295491284883138535689200, 295540978856059066532900,
  295570985309911180290000, 295601130838634440974200, 295621284883138535689200, 295630845850594786831400, 295721394744367402500100,
  295750912716210841996300, 295771111423032996878400, 295790735303021427522200, 295951020977405574163300, 296091175021909668878100,
  296150842199073489321700, 296160767268165278306200, 296191394744367402500100, 296270926531244690078100, 296321085640122066668500,
  296421284883138535689200, 296451025856421991106500, 296640810680201665160300, 296711394744367402500100, 296770723327314411552900,
  296940767268165278306200, 296990676205665844458450, 297011186800213234516500, 297020470125364915512100, 297051284883138535689200,
  297381117485495178522000, 297480863917597662379700, 297501111423032996878400, 297561284883138535689200, 297851284883138535689200,
  297860794355660691846100, 297901256114931290511000, 297910959073484733540800, 298021020977405574163300, 298071186800213234516500,
  298080889119786867669300, 298270765217767258535450, 298401117485495178522000, 298720842199073489321700, 298981284883138535689200,
  299160926531244690078100, 299231072856784915680000, 299241215568420479694600, 299260878838837481047200, 299420952860306622840300,
  299430969894843197564200, 299760994011048879253000, 299830500642169048364100, 299860406896628449304000, 299890985309911180290000,
  299920574249850900579400, 300000931271468579536500, 300010691217507474390400, 300020691393718973730300, 300031068934713600352000,
  300050541437713345247300, 300070961671033373867000, 300081028388202789535400, 300110828101698591256900, 300141284883138535689200,
  300280649214518834171000, 300410853134327182058000, 300441030985751429861500, 300501325429649346505600, 300530684906803543421400,
  300580928400457991293300, 300590828101698591256900, 300640807814676089122600, 300700997715176047287900, 300861054624629236284500,
  300900978856059066532900, 300951095171140047101000, 300970778412886999036000, 301030796350739333781000, 301051068934713600352000,
  301061325429649346505600, 301111233800576159090000, 301131081194945809585100, 301230772884355433327100, 301261284883138535689200,
  301271394744367402500100, 301291090292123630157800, 301371394744367402500100, 301401130838634440974200, 301420766704783506480600,
  301490736680453674005200, 301531325429649346505600, 301681256114931290511000, 301691325429649346505600, 301710947010685954679400,
  301741284883138535689200, 301781154954840122663000, 301871130838634440974200, 301921233800576159090000, 301961164485858103095600,
  302011164485858103095600, 302021164485858103095600, 302081175021909668878100, 302191394744367402500100, 302201256114931290511000,
  302211081194945809585100, 302391186800213234516500, 302411284883138535689200, 302440999619995544357400, 302471233800576159090000,
  302491233800576159090000, 302701154954840122663000, 302711394744367402500100, 302740796350739333781000, 302791130838634440974200,
  302841058014784403852600, 303000955299451935256300, 303151256114931290511000, 303171394744367402500100, 303181154954840122663000,
  303221256114931290511000, 303311154954840122663000, 303320558924621409922100, 303330608918949183897150, 303340620677927210775950,
  303381068934713600352000, 303400737656071168541700, 303430877695967898684900, 303441284883138535689200, 303820730495687265774500,
  303841090292123630157800, 304061164485858103095600, 304080596059877286361800, 304100575376700806976100, 304151175021909668878100,
  304160861956750523542000, 304170777783294153354450, 304181146253702423700100, 304220724671256447719000, 304231058014784403852600,
  304240581414981280236700, 304271023387160732069400, 304281058014784403852600, 304301175021909668878100, 304310748441421710433100,
  304350777783294153354450, 304360581414981280236700, 304391085640122066668500, 304420995845962746072600, 304460846264674053434600,
  304501003542066859685500, 304520913525931865258300, 304560783155154854196700, 304620997715176047287900, 304651111423032996878400,
  304731186800213234516500, 304950779258558000858300, 304960942565509697596000, 305240756224927502727500, 305260881164523697473900,
  305280940414889175499600, 305611186800213234516500, 305630750809330292490300, 305711018624355833143900, 305851394744367402500100,
  305901081194945809585100, 306061123939347292279000, 306341123939347292279000, 306401284883138535689200, 306431394744367402500100,
  306510904216889558657000, 306831325429649346505600, 306930779046468843944500, 307010974275105463403400, 307020975778893199857600,
  307070654804559069364700, 307121138249431656346500, 307171033652576138077700, 307180925609579179585800, 307190645023645082168300,
  307210894349736807954000, 307220949309637777149400, 307400874343698694820600, 307421061523916384979700, 307720729587180043527400]

def emitM25_5 : List Nat := [
  307751256114931290511000, 307821025856421991106500, 307840832704280830785100, 307891033652576138077700, 308130922894480272990600,
  308270965698423287661000, 308280909541341010538300, 308300667019594739351700, 308441146253702423700100, 308610866423994528701200,
  308621030985751429861500, 308711011880227753590600, 308721130838634440974200, 308751100300469485856000, 308791256114931290511000,
  308961284883138535689200, 308970858146765900314900, 308990904960387407408900, 309001200153352496968800, 309060667019594739351700,
  309080894349736807954000, 309101256114931290511000, 309130691835610987533800, 309381061523916384979700, 309511100300469485856000,
  309520898459904376509400, 309670962995556048869000, 309701061523916384979700, 309900832704280830785100, 310010866423994528701200,
  310140645023645082168300, 310191025856421991106500, 310200925609579179585800, 310340743421356311269400, 310360893680837992874500,
  310380688183031042728400, 310401090292123630157800, 310620748285537033504000, 310691325429649346505600, 310700689385794683132400,
  310770891049107161137100, 310800837528964184723500, 310951394744367402500100, 310961325429649346505600, 311031394744367402500100,
  311050773083757294013600, 311081394744367402500100, 311091105707191612883600, 311171325429649346505600, 311190961671033373867000,
  311420786522476364855500, 311461105707191612883600, 311500893680837992874500, 311531394744367402500100, 311621325429649346505600,
  311630677578685125648600, 311651117485495178522000, 311671394744367402500100, 311680945880730429286100, 311690887226985879117400,
  311711394744367402500100, 311741284883138535689200, 311761081194945809585100, 311791065160680802067200, 311810788133558392125300,
  311850670607739070268300, 311861233800576159090000, 311920900580125141569700, 311990691747076231861400, 312041200153352496968800,
  312061256114931290511000, 312071090292123630157800, 312150623768680957083600, 312160847098012209349000, 312271146253702423700100,
  312321394744367402500100, 312370729200332365735400, 312401284883138535689200, 312430646983943082741200, 312460729200332365735400,
  312581117485495178522000, 312621095171140047101000, 312641100300469485856000, 312671154954840122663000, 312780788133558392125300,
  312810847098012209349000, 312830902018998886779700, 312911090292123630157800, 312920813331314219993500, 312931146253702423700100,
  312951030985751429861500, 313081154954840122663000, 313090623768680957083600, 313101200153352496968800, 313191095171140047101000,
  313370902018998886779700, 313481117485495178522000, 313500522063806557890500, 313510965698423287661000, 313540620200806375062000,
  313591138249431656346500, 313611023387160732069400, 313630974275105463403400, 313771130838634440974200, 313890912716210841996300,
  313911130838634440974200, 313971025856421991106500, 313981036392473556889000, 314001033652576138077700, 314010912716210841996300,
  314021045093611255852100, 314060965698423287661000, 314071130838634440974200, 314181025856421991106500, 314231200153352496968800,
  314311036392473556889000, 314340974275105463403400, 314350686657577733421800, 314490974275105463403400, 314541394744367402500100,
  314561068934713600352000, 314610927461483956309400, 314691394744367402500100, 314711051345646953985400, 314781394744367402500100,
  314810947010685954679400, 314821233800576159090000, 314871117485495178522000, 314911200153352496968800, 314941284883138535689200,
  315050983656980985168900, 315080913525931865258300, 315151081194945809585100, 315260838292326670230800, 315320745823874269968400,
  315461175021909668878100, 315481007624266311711000, 315580913525931865258300, 315610724917561990958800, 315631394744367402500100,
  315671200153352496968800, 315690652327839298297300, 315700926531244690078100, 315721117485495178522000, 315740745672013952249400,
  315811175021909668878100, 316071256114931290511000, 316090729329115384178200, 316140727414570625734700, 316271175021909668878100,
  316290879415207952722300, 316311175021909668878100, 316361394744367402500100, 316390579323097911077200, 316490637083390705196300,
  316610755051401880885500, 316651007624266311711000, 316800702184847691453300, 316840748910539068021100, 316870773885364792837200,
  316890652327839298297300, 316991284883138535689200, 317161200153352496968800, 317261076938984367705600, 317351039209561253558800,
  317571284883138535689200, 317830918526973922724500, 317991233800576159090000, 318050727414570625734700, 318060925609579179585800,
  318111076938984367705600, 318200729329115384178200, 318211045093611255852100, 318401007624266311711000, 318581186800213234516500,
  318590770327677336126500, 318670755888226847937100, 318681081194945809585100, 318690919385348291863600, 318810883545588566845700,
  318900842598275616275500, 318960910325658756641000, 319031058014784403852600, 319141058014784403852600, 319180737936576261302500,
  319211039209561253558800, 319290887226985879117400, 319340835645669351414400, 319460967077755500894500, 319580814532529864793800,
  319611068934713600352000, 319661058014784403852600, 319671215568420479694600, 319750737936576261302500, 319950755385292007436900,
  320000738641300812842800, 320040742682254646630500, 320050683511622931409000, 320090912716210841996300, 320110762129420086990200,
  320130882347969462174200, 320201039209561253558800, 320230858615150831557500, 320250847938353288987000, 320260730105315917727100,
  320271175021909668878100, 320320911912993672270000, 320330762847556027856650, 320340896383705231666500, 320391146253702423700100,
  320430959073484733540800, 320471005562337591437400, 320480649562143749707100, 320570939356678242446000, 320581256114931290511000,
  320661105707191612883600, 320680744315550048835500, 320800761238942252694200, 320851325429649346505600, 320911146253702423700100,
  320940945880730429286100, 320970841801458651357700, 321020834164160772900400, 321040951662687518168800, 321130709520110497312200,
  321140765772810311600300, 321211394744367402500100, 321470518198514252077400, 321560836771384803877900, 321600738924587121273200,
  321621117485495178522000, 321721164485858103095600, 321730769361486244952800, 321770930305277488362800, 321780800727242130456900,
  321841200153352496968800, 321910985309911180290000, 322021146253702423700100, 322100858615150831557500, 322180669751813730701300,
  322211025856421991106500, 322270879994919721154800, 322320868475348512011500, 322331394744367402500100, 322390785613379194730300,
  322440799420033973721600, 322831394744367402500100, 322910955299451935256300, 322990833431556763693100, 323020825371153522230100,
  323050988700066347858100, 323111325429649346505600, 323170681654484372865350, 323180943658416750815100, 323211164485858103095600,
  323400637237197451744000, 323501256114931290511000, 323531394744367402500100, 323611233800576159090000, 323621186800213234516500,
  323651233800576159090000, 323711123939347292279000, 323771117485495178522000, 323800964337858082083200, 323861117485495178522000,
  323960639415706842458100, 324031100300469485856000, 324060856754632048454000, 324121111423032996878400, 324180683511622931409000,
  324200856754632048454000, 324220742682254646630500, 324230730105315917727100, 324260738641300812842800, 324270912716210841996300,
  324280785613379194730300, 324311039209561253558800, 324330858615150831557500, 324340930305277488362800, 324350882347969462174200,
  324370988700066347858100, 324381200153352496968800, 324391175021909668878100, 324400847938353288987000, 324410762129420086990200,
  324420762847556027856650, 324470669751813730701300, 324481256114931290511000, 324510799420033973721600, 324520744315550048835500,
  324540649562143749707100, 324550637237197451744000, 324561105707191612883600, 324610939356678242446000, 324621117485495178522000,
  324630518198514252077400, 324660951662687518168800, 324670761238942252694200, 324691256114931290511000, 324721186800213234516500,
  324730834164160772900400, 324760841801458651357700, 324771325429649346505600, 324780945880730429286100, 324790709520110497312200,
  324821394744367402500100, 324831394744367402500100, 324861146253702423700100, 324870964337858082083200, 324890943658416750815100,
  324900858615150831557500, 324930639415706842458100, 324991233800576159090000, 325000769361486244952800, 325010985309911180290000,
  325021164485858103095600, 325041117485495178522000, 325080836771384803877900, 325110738924587121273200, 325181111423032996878400,
  325211025856421991106500, 325311394744367402500100, 325331325429649346505600, 325340868475348512011500, 325360879994919721154800,
  325381394744367402500100, 325410833431556763693100, 325521100300469485856000, 325530825371153522230100, 325601215568420479694600,
  325641123939347292279000, 325681175021909668878100, 325700964337858082083200, 325920942565509697596000, 325930800727242130456900,
  325971233800576159090000, 325990765217767258535450, 326020922894480272990600, 326180833797187884004000, 326220816670015823267200,
  326240922894480272990600, 326261200153352496968800, 326291105707191612883600, 326450765217767258535450, 326500897070993160442700,
  326540879415207952722300, 326601284883138535689200, 326661146253702423700100, 326701090292123630157800, 326711284883138535689200,
  326761028388202789535400, 326771284883138535689200, 326791284883138535689200, 326810638268666111927200, 327011394744367402500100,
  327090859085739935298800, 327181233800576159090000, 327220745672013952249400, 327240974275105463403400, 327281233800576159090000,
  327361090292123630157800, 327451325429649346505600, 327611233800576159090000, 327631394744367402500100, 327641020977405574163300,
  327681394744367402500100, 327690695259368819193000, 327710844211213809263800, 327730863423769498321300, 327800800464429889830000,
  327841090292123630157800, 327890872169700031180000, 327910860510942206019000, 327921284883138535689200, 328190779471097932089700,
  328221138249431656346500, 328241100300469485856000, 328271065160680802067200, 328421256114931290511000, 328440900580125141569700,
  328520640258260536654300, 328541072856784915680000, 328560922005585531266000, 328580808097561709170400, 328620751611259209152200,
  328741233800576159090000, 328790640258260536654300, 328801233800576159090000, 328820774490815683707800, 328831100300469485856000,
  328870900580125141569700, 328930965698423287661000, 328991030985751429861500, 329011030985751429861500, 329050927461483956309400,
  329080873795752118358000, 329220916832018091347200, 329250894349736807954000, 329271394744367402500100, 329280824700010063431500]

def emitM25_6 : List Nat := [
  329290735303021427522200, 329300936247619535442900, 329320849212255866730000, 329330893016383721007600, 329371186800213234516500,
  329380775712826817185300, 329451200153352496968800, 329460644746713307287900, 329541215568420479694600, 329571394744367402500100,
  329581200153352496968800, 329591081194945809585100, 329600887226985879117400, 329611051345646953985400, 329631117485495178522000,
  329661072856784915680000, 329720995845962746072600, 329740898459904376509400, 329820956541703935112000, 329861020977405574163300,
  329871068934713600352000, 329880654134029278798600, 329900719634220508824000, 329930872708784894667600, 329991325429649346505600,
  330081325429649346505600, 330091005562337591437400, 330140920251154566175000, 330160937273269552161800, 330181051345646953985400,
  330210578806893724957500, 330260895023140026088600, 330291051345646953985400, 330320891049107161137100, 330330891049107161137100,
  330340983656980985168900, 330390789535450510058400, 330401117485495178522000, 330410864912630747696400, 330430905709454580324700,
  330461123939347292279000, 330500831265407085575200, 330671215568420479694600, 330711215568420479694600, 330731215568420479694600,
  330741284883138535689200, 330801033652576138077700, 330810887226985879117400, 330861072856784915680000, 330961154954840122663000,
  330980806691068762430000, 331021200153352496968800, 331040850502596350320800, 331080947010685954679400, 331091054624629236284500,
  331251001561804130067500, 331260864912630747696400, 331311081194945809585100, 331341284883138535689200, 331361016325404010674000,
  331390831265407085575200, 331440824700010063431500, 331450944763400369473600, 331460818225257124015600, 331501200153352496968800,
  331510944763400369473600, 331601394744367402500100, 331621051345646953985400, 331670962995556048869000, 331780849212255866730000,
  331791138249431656346500, 331800889758766677546300, 331840920251154566175000, 331920893680837992874500, 332131072856784915680000,
  332150905709454580324700, 332180972793596884889500, 332251033652576138077700, 332291117485495178522000, 332400806691068762430000,
  332470789535450510058400, 332531215568420479694600, 332561076938984367705600, 332580796602946277052000, 332611186800213234516500,
  332671081194945809585100, 332680895023140026088600, 332761054624629236284500, 332851007624266311711000, 332870779471097932089700,
  332880900580125141569700, 332890823371086851563100, 332900956541703935112000, 332920957799582155797900, 332930950479241753468400,
  332981394744367402500100, 333100851809804507056000, 333111394744367402500100, 333220729200332365735400, 333240935232382389041000,
  333331081194945809585100, 333340977305640412936300, 333370821087137654580900, 333511394744367402500100, 333910872169700031180000,
  333940617090864583976000, 333951325429649346505600, 333991325429649346505600, 334020684989482341020800, 334100702184847691453300,
  334241394744367402500100, 334261325429649346505600, 334331076938984367705600, 334361394744367402500100, 334371011880227753590600,
  334461018624355833143900, 334481164485858103095600, 334520960363825217131700, 334551111423032996878400, 334570642342225881887600,
  334671154954840122663000, 334690912716210841996300, 334731051345646953985400, 334761394744367402500100, 334791058014784403852600,
  334801256114931290511000, 334851105707191612883600, 334870960363825217131700, 334891394744367402500100, 334911215568420479694600,
  334921394744367402500100, 334951164485858103095600, 335021394744367402500100, 335101105707191612883600, 335190904216889558657000,
  335210834532485314530000, 335270935232382389041000, 335381065160680802067200, 335390748910539068021100, 335401028388202789535400,
  335411028388202789535400, 335451175021909668878100, 335751233800576159090000, 335761325429649346505600, 335801123939347292279000,
  335831233800576159090000, 335851045093611255852100, 335881138249431656346500, 335891325429649346505600, 335900971333716942774200,
  336061175021909668878100, 336090773083757294013600, 336101175021909668878100, 336160805304083976015000, 336181061523916384979700,
  336201105707191612883600, 336330995845962746072600, 336350936247619535442900, 336431138249431656346500, 336441394744367402500100,
  336470745066868383913850, 336551068934713600352000, 336601233800576159090000, 336730926531244690078100, 336741033652576138077700,
  336881200153352496968800, 337041146253702423700100, 337071130838634440974200, 337140873250791641601500, 337190978856059066532900,
  337221233800576159090000, 337251065160680802067200, 337351130838634440974200, 337381111423032996878400, 337400803936073585607000,
  337501130838634440974200, 337560803664702998447400, 337601138249431656346500, 337691085640122066668500, 337701146253702423700100,
  337750619039253199298700, 337781284883138535689200, 337960666605801045471800, 338061256114931290511000, 338201284883138535689200,
  338210787670594602251100, 338290639678243091966500, 338320845027544873180000, 338360894349736807954000, 338521284883138535689200,
  338530823041597261877900, 338650651023730715370800, 338791058014784403852600, 338890988700066347858100, 338911146253702423700100,
  338941058014784403852600, 338990961671033373867000, 339000824033340927612600, 339051233800576159090000, 339071284883138535689200,
  339221233800576159090000, 339451146253702423700100, 339760907990922356941800, 339781081194945809585100, 339801105707191612883600,
  339880863917597662379700, 339950724671256447719000, 340130842199073489321700, 340151284883138535689200, 340281233800576159090000,
  340300873250791641601500, 340311051345646953985400, 340471394744367402500100, 340671200153352496968800, 340711111423032996878400,
  340851233800576159090000, 340911284883138535689200, 340931138249431656346500, 341031200153352496968800, 341090932247086074073000,
  341151200153352496968800, 341210974275105463403400, 341221394744367402500100, 341301394744367402500100, 341541394744367402500100,
  341740908763126966332800, 341801256114931290511000, 341831284883138535689200, 341861284883138535689200, 341961200153352496968800,
  342140805304083976015000, 342170845027544873180000, 342180988700066347858100, 342231233800576159090000, 342530842199073489321700,
  342550737097410497677600, 342681256114931290511000, 342690684989482341020800, 342761130838634440974200, 342770745066868383913850,
  342941256114931290511000, 342990995845962746072600, 343101018624355833143900, 343110960363825217131700, 343490715847193103283100,
  343670787670594602251100, 343820904216889558657000, 343831325429649346505600, 343841394744367402500100, 343851100300469485856000,
  343890878265770010148600, 343941111423032996878400, 343951111423032996878400, 343961325429649346505600, 343990804754632044250900,
  344110779684090557872200, 344250961671033373867000, 344301394744367402500100, 344320898459904376509400, 344331051345646953985400,
  344421215568420479694600, 344530974275105463403400, 344601394744367402500100, 344671325429649346505600, 344681215568420479694600,
  344961394744367402500100, 345021394744367402500100, 345031033652576138077700, 345070769746843176551700, 345101394744367402500100,
  345121146253702423700100, 345161394744367402500100, 345231048170777122527400, 345321020977405574163300, 345421048170777122527400,
  345601175021909668878100, 345621014078118425468100, 345671215568420479694600, 345841138249431656346500, 345881030985751429861500,
  345930969894843197564200, 346191186800213234516500, 346321256114931290511000, 346381081194945809585100, 346450898459904376509400,
  346561284883138535689200, 346621394744367402500100, 346780972793596884889500, 347010641054654445883100, 347191394744367402500100,
  347281164485858103095600, 347411186800213234516500, 347460894349736807954000, 347581200153352496968800, 347601256114931290511000,
  347661164485858103095600, 348020779684090557872200, 348111051345646953985400, 348291081194945809585100, 348381394744367402500100,
  348470969894843197564200, 348511394744367402500100, 348700974275105463403400, 348751048170777122527400, 348800623634242218484300,
  348851200153352496968800, 348920476787183572045400, 348931394744367402500100, 348990601795715071071150, 349001256114931290511000,
  349031014078118425468100, 349051284883138535689200, 349070657030996119104700, 349090923791347271266600, 349130863917597662379700,
  349150735303021427522200, 349171007624266311711000, 349200591866251153785400, 349231256114931290511000, 349280868994830199722000,
  349301072856784915680000, 349351090292123630157800, 349550902018998886779700, 349571256114931290511000, 349661090292123630157800,
  349721233800576159090000, 349891117485495178522000, 349931394744367402500100, 350090844618546348027400, 350100820124048348484700,
  350130724671256447719000, 350141105707191612883600, 350291256114931290511000, 350361007624266311711000, 350370724671256447719000,
  350410688439551063682800, 350441072856784915680000, 350651325429649346505600, 350880771893267043381750, 351051130838634440974200,
  351091081194945809585100, 351221072856784915680000, 351261164485858103095600, 351401233800576159090000, 351681105707191612883600,
  351781233800576159090000, 351861117485495178522000, 351990659885614309740800, 352010712307000398191500, 352061284883138535689200,
  352110757071672612637400, 352150838676204300947200, 352220638788417801730100, 352420889758766677546300, 352501138249431656346500,
  352580955299451935256300, 352610730235270451935700, 352640763570886487208600, 352650757071672612637400, 352660763570886487208600,
  352680838676204300947200, 352700638788417801730100, 352720730235270451935700, 352730955299451935256300, 352801138249431656346500,
  352820644857394004807000, 352990679048730940936450, 353020992209198328985100, 353200992209198328985100, 353280650553694597337600,
  353300917675904955933700, 353360650027531442496000, 353380683348756445896600, 353420820765076184576600, 353470891049107161137100,
  353520731149711833835400, 353551256114931290511000, 353590883545588566845700, 353700822713189741758900, 353730831623189220363600,
  353771039209561253558800, 353800852690867475271500, 353860891049107161137100, 354081100300469485856000, 354121394744367402500100,
  354130937273269552161800, 354221025856421991106500, 354241394744367402500100, 354260939356678242446000, 354300849212255866730000,
  354331058014784403852600, 354410742388136787548800, 354631200153352496968800, 354650903478878828895000, 354691072856784915680000,
  354751284883138535689200, 354770971333716942774200, 354860756901749037341400, 354881100300469485856000, 354921233800576159090000]

def emitM25_7 : List Nat := [
  354941200153352496968800, 354980834902171502662700, 355061164485858103095600, 355161001561804130067500, 355190847517300035352700,
  355270815138592325962800, 355310816979135080234400, 355420726533507657519200, 355481123939347292279000, 355820938309548255716500,
  355840708155259914156200, 355941256114931290511000, 356071095171140047101000, 356110985309911180290000, 356130927461483956309400,
  356281186800213234516500, 356411233800576159090000, 356570636623384782865500, 356720660920552395941100, 356760884757724620080300,
  356860839448408910338300, 356950850502596350320800, 356960660790597861732600, 357030581650137179312300, 357090903478878828895000,
  357120977305640412936300, 357220851809804507056000, 357310801519848657699000, 357450650027531442496000, 357460917675904955933700,
  357481072856784915680000, 357520820765076184576600, 357530801519848657699000, 357570891049107161137100, 357580660790597861732600,
  357590683348756445896600, 357600731149711833835400, 357620985309911180290000, 357681039209561253558800, 357691256114931290511000,
  357700726533507657519200, 357720883545588566845700, 357740831623189220363600, 357750822713189741758900, 357770636623384782865500,
  357800937273269552161800, 357820660920552395941100, 357841100300469485856000, 357850852690867475271500, 357860891049107161137100,
  357891025856421991106500, 357911394744367402500100, 357930850502596350320800, 357970849212255866730000, 357991058014784403852600,
  358021100300469485856000, 358050742388136787548800, 358060971333716942774200, 358100939356678242446000, 358210756901749037341400,
  358231233800576159090000, 358280834902171502662700, 358291200153352496968800, 358310816979135080234400, 358340938309548255716500,
  358350977305640412936300, 358381164485858103095600, 358430847517300035352700, 358480815138592325962800, 358501001561804130067500,
  358510708155259914156200, 358531123939347292279000, 358541256114931290511000, 358740927461483956309400, 358761095171140047101000,
  358801233800576159090000, 358841186800213234516500, 358890884757724620080300, 358950843805533739702400, 359100828448319388905600,
  359161233800576159090000, 359201215568420479694600, 359370699950660541003200, 359460957799582155797900, 359480997715176047287900,
  359611394744367402500100, 359701186800213234516500, 359800995845962746072600, 359871284883138535689200, 359971033652576138077700,
  359981100300469485856000, 360000856294861123591200, 360011154954840122663000, 360021215568420479694600, 360071325429649346505600,
  360080698330806160675600, 360090910325658756641000, 360111020977405574163300, 360120591378524613885050, 360151051345646953985400,
  360201164485858103095600, 360230790957275410286300, 360240816670015823267200, 360270535774379182201500, 360281058014784403852600,
  360310842999077756029400, 360321394744367402500100, 360341095171140047101000, 360350955299451935256300, 360360942565509697596000,
  360390384322179168779300, 360421325429649346505600, 360510875448682313479000, 360601394744367402500100, 360620967077755500894500,
  360641146253702423700100, 360670799420033973721600, 360740626865467582584750, 360761095171140047101000, 360840841801458651357700,
  360920769746843176551700, 360930909541341010538300, 361041111423032996878400, 361111284883138535689200, 361251033652576138077700,
  361261100300469485856000, 361270856294861123591200, 361291215568420479694600, 361301154954840122663000, 361310591378524613885050,
  361330919385348291863600, 361341095171140047101000, 361350698330806160675600, 361360626865467582584750, 361370910325658756641000,
  361391325429649346505600, 361410769746843176551700, 361421051345646953985400, 361431020977405574163300, 361481058014784403852600,
  361491164485858103095600, 361510816670015823267200, 361520842999077756029400, 361530535774379182201500, 361541394744367402500100,
  361561325429649346505600, 361590942565509697596000, 361610955299451935256300, 361621095171140047101000, 361640384322179168779300,
  361750967077755500894500, 361761394744367402500100, 361801146253702423700100, 361820841801458651357700, 361870909541341010538300,
  361921111423032996878400, 361941284883138535689200, 361961284883138535689200, 361981138249431656346500, 362031001561804130067500,
  362080833431556763693100, 362141256114931290511000, 362150842199073489321700, 362340864912630747696400, 362351325429649346505600,
  362451256114931290511000, 362591175021909668878100, 362641325429649346505600, 362750690253855689563000, 362860954072442676074800,
  362911005562337591437400, 363001146253702423700100, 363050945880730429286100, 363101138249431656346500, 363170828796145826538000,
  363190960363825217131700, 363211394744367402500100, 363350651851647922272900, 363391018624355833143900, 363411007624266311711000,
  363430972793596884889500, 363671001561804130067500, 363681007624266311711000, 363811325429649346505600, 363861233800576159090000,
  363941154954840122663000, 363991394744367402500100, 364200795848225713513700, 364240940414889175499600, 364481138249431656346500,
  364541325429649346505600, 364601394744367402500100, 364740972793596884889500, 364931005562337591437400, 364971394744367402500100,
  365230783376149419276900, 365241186800213234516500, 365381325429649346505600, 365540644968197340243150, 365551130838634440974200,
  365561025856421991106500, 365570755888226847937100, 365711028388202789535400, 365751284883138535689200, 365941186800213234516500,
  366000922005585531266000, 366110964337858082083200, 366170947010685954679400, 366281186800213234516500, 366290699758721902422800,
  366351090292123630157800, 366371051345646953985400, 366491123939347292279000, 366500744615400348461200, 366550816054629265829200,
  366640698047653541101700, 366670858146765900314900, 366760697109560357725200, 366810727288228221057500, 366860975778893199857600,
  367100644968197340243150, 367111130838634440974200, 367121025856421991106500, 367160727288228221057500, 367171028388202789535400,
  367180744615400348461200, 367191284883138535689200, 367211186800213234516500, 367240922005585531266000, 367310699758721902422800,
  367330947010685954679400, 367350975778893199857600, 367390964337858082083200, 367411186800213234516500, 367421090292123630157800,
  367441123939347292279000, 367451051345646953985400, 367520858146765900314900, 367530816054629265829200, 367550698047653541101700,
  367580697109560357725200, 367631138249431656346500, 367641175021909668878100, 367660980430894763346700, 367711090292123630157800,
  367740763752539579848400, 367760857216526634083600, 367770939356678242446000, 367791138249431656346500, 367810980430894763346700,
  367821138249431656346500, 367830939356678242446000, 367851036392473556889000, 367860755888226847937100, 367930842598275616275500,
  367980837149457087868500, 368010916832018091347200, 368070815138592325962800, 368141186800213234516500, 368160685403904815623500,
  368170975778893199857600, 368201394744367402500100, 368241256114931290511000, 368270713290077676504300, 368280756393703914099550,
  368300805028980638826000, 368311233800576159090000, 368380935232382389041000, 368421042108314940883900, 368430882944986160824600,
  368480951662687518168800, 368571394744367402500100, 368611186800213234516500, 368641081194945809585100, 368650816361849169526400,
  368660834164160772900400, 368671200153352496968800, 368700947010685954679400, 368730773283557560280900, 368790779684090557872200,
  368800813033251406179700, 368821036392473556889000, 368841018624355833143900, 368871284883138535689200, 368900609461586174325600,
  368950626357969376857150, 368960578264886978023500, 368990805028980638826000, 369130570732237594852900, 369140713290077676504300,
  369230930305277488362800, 369301233800576159090000, 369351048170777122527400, 369380673146867137353500, 369390685403904815623500,
  369410917675904955933700, 369420815138592325962800, 369470654073294384736050, 369480837149457087868500, 369510907224635082385000,
  369531085640122066668500, 369581036392473556889000, 369600756393703914099550, 369630978856059066532900, 369651085640122066668500,
  369690834164160772900400, 369781233800576159090000, 369830916832018091347200, 369840773283557560280900, 369860907224635082385000,
  369911325429649346505600, 369961256114931290511000, 370020842598275616275500, 370070930305277488362800, 370270988700066347858100,
  370300852690867475271500, 370380947010685954679400, 370511154954840122663000, 370570982030928897990800, 370661138249431656346500,
  370700864413876596592500, 370960536296573580316700, 371011175021909668878100, 371090947010685954679400, 371121394744367402500100,
  371170840226622954543800, 371290888484864099803300, 371681154954840122663000, 371701394744367402500100, 371970849640522045930000,
  372001215568420479694600, 372020802854981975185400, 372101105707191612883600, 372211215568420479694600, 372261233800576159090000,
  372281090292123630157800, 372301014078118425468100, 372311146253702423700100, 372320876005786818424600, 372331105707191612883600,
  372370999619995544357400, 372381030985751429861500, 372391105707191612883600, 372400640311156597131250, 372551164485858103095600,
  372570965698423287661000, 372591111423032996878400, 372661325429649346505600, 372751030985751429861500, 372910774896495753269300,
  372921105707191612883600, 373131200153352496968800, 373190904960387407408900, 373211130838634440974200, 373220909541341010538300,
  373230909541341010538300, 373240688439551063682800, 373250727667735317912600, 373260887226985879117400, 373270726533507657519200,
  373290511748562978951950, 373361200153352496968800, 373411011880227753590600, 373651154954840122663000, 373961068934713600352000,
  374110885369347321823800, 374141186800213234516500, 374241284883138535689200, 374280796099166874056300, 374311256114931290511000,
  374381325429649346505600, 374401394744367402500100, 374631215568420479694600, 374671085640122066668500, 374761154954840122663000,
  374841146253702423700100, 374921111423032996878400, 374991215568420479694600, 375040796855790912387900, 375090785613379194730300,
  375260975778893199857600, 375321256114931290511000, 375501001561804130067500, 375551164485858103095600, 375590653588738621383800,
  375610880578011752234000, 375631138249431656346500, 375691138249431656346500, 375730961671033373867000, 375751325429649346505600,
  375860785613379194730300, 376101186800213234516500, 376151394744367402500100, 376241054624629236284500, 376280788133558392125300,
  376360797363406215574000, 376480896383705231666500, 376560945880730429286100, 376660828101698591256900, 376701081194945809585100]

def emitM25_8 : List Nat := [
  376751033652576138077700, 376791072856784915680000, 376830961671033373867000, 377070918526973922724500, 377091065160680802067200,
  377490825035018751959700, 377620990439240619045000, 377820884757724620080300, 377940985309911180290000, 378060910325658756641000,
  378570938309548255716500, 378721394744367402500100, 379121105707191612883600, 379410722241003185815800, 379561164485858103095600,
  379691111423032996878400, 380001146253702423700100, 380131284883138535689200, 380141001561804130067500, 380241011880227753590600,
  380251200153352496968800, 380391154954840122663000, 380410885369347321823800, 380431186800213234516500, 380461068934713600352000,
  380471105707191612883600, 380491325429649346505600, 380500788133558392125300, 380531146253702423700100, 380560985309911180290000,
  380571154954840122663000, 380650828101698591256900, 380671215568420479694600, 380681256114931290511000, 380751284883138535689200,
  380761146253702423700100, 380781394744367402500100, 380801325429649346505600, 380810722241003185815800, 380830796099166874056300,
  380851085640122066668500, 380881284883138535689200, 381080785613379194730300, 381091138249431656346500, 381140975778893199857600,
  381241215568420479694600, 381340796855790912387900, 381361164485858103095600, 381381186800213234516500, 381440653588738621383800,
  381450884757724620080300, 381490918526973922724500, 381501394744367402500100, 381520880578011752234000, 381550785613379194730300,
  381560961671033373867000, 381601164485858103095600, 381611138249431656346500, 381691072856784915680000, 381771033652576138077700,
  381800945880730429286100, 381810896383705231666500, 381821081194945809585100, 381900825035018751959700, 381911054624629236284500,
  381920961671033373867000, 382081065160680802067200, 382090990439240619045000, 382150910325658756641000, 382341394744367402500100,
  382360938309548255716500, 382630555536029365160700, 382710555536029365160700, 382720650377999090940900, 382750941484418087174500,
  382810718934916959726960, 382830829145186320514900, 382901028388202789535400, 382910691570241526187250, 382960941484418087174500,
  383070857680564589733800, 383121146253702423700100, 383211215568420479694600, 383311164485858103095600, 383461076938984367705600,
  383640703072865367139150, 383760650377999090940900, 383780941484418087174500, 383810718934916959726960, 383820902018998886779700,
  383861028388202789535400, 383880691570241526187250, 383920941484418087174500, 383931048170777122527400, 383941146253702423700100,
  383950751611259209152200, 384010857680564589733800, 384051215568420479694600, 384141164485858103095600, 384201076938984367705600,
  384310770911904898549300, 384500707324517857170700, 384510641964968630355700, 384520957799582155797900, 384531011880227753590600,
  384540564517787915163300, 384590918526973922724500, 384631325429649346505600, 384640841405418529748000, 384680967077755500894500,
  384690694984769104307400, 384700694619805195552500, 384721085640122066668500, 384770841405418529748000, 384800486755373143288300,
  384980787670594602251100, 384991011880227753590600, 385000942565509697596000, 385050643318902120859100, 385061215568420479694600,
  385120957799582155797900, 385151085640122066668500, 385170794355660691846100, 385181164485858103095600, 385191051345646953985400,
  385200694619805195552500, 385250641964968630355700, 385341020977405574163300, 385380770911904898549300, 385420564517787915163300,
  385430910325658756641000, 385441175021909668878100, 385481061523916384979700, 385521284883138535689200, 385550694984769104307400,
  385560769746843176551700, 385671068934713600352000, 385680910325658756641000, 385700643318902120859100, 385771175021909668878100,
  385820737796225361070500, 385840737796225361070500, 385900830908900469125600, 385920978856059066532900, 385960866932901479448300,
  385970847938353288987000, 385980722361123320379200, 385991186800213234516500, 386041284883138535689200, 386051325429649346505600,
  386131325429649346505600, 386171325429649346505600, 386200818225257124015600, 386220922894480272990600, 386260677578685125648600,
  386270830908900469125600, 386320753234671485340500, 386340899868378364683300, 386420870569665896535800, 386431186800213234516500,
  386461394744367402500100, 386470792157770019968700, 386510541437713345247300, 386541111423032996878400, 386560874894664275917600,
  386630826386390668632000, 386650789771021879304300, 386691325429649346505600, 386841394744367402500100, 386951111423032996878400,
  387041233800576159090000, 387061154954840122663000, 387120943658416750815100, 387221186800213234516500, 387280906464175143863000,
  387380797109276472706700, 387421233800576159090000, 387450899868378364683300, 387480899868378364683300, 387501001561804130067500,
  387520805856571569212000, 387531284883138535689200, 387540622875817882653500, 387610703072865367139150, 387741394744367402500100,
  387951061523916384979700, 387971154954840122663000, 388081215568420479694600, 388191394744367402500100, 388291014078118425468100,
  388491215568420479694600, 388601100300469485856000, 388871100300469485856000, 388990702381504588657400, 389010955299451935256300,
  389070955299451935256300, 389110678117769989136200, 389130898459904376509400, 389140895023140026088600, 389170922894480272990600,
  389181394744367402500100, 389201014078118425468100, 389281090292123630157800, 389291186800213234516500, 389311030985751429861500,
  389360811556119674148300, 389400944763400369473600, 389501154954840122663000, 389570645190173014074500, 389680869517024597837100,
  389710968476379698368500, 389821284883138535689200, 389880904216889558657000, 389890833431556763693100, 390000757241885419690400,
  390060755888226847937100, 390151138249431656346500, 390191394744367402500100, 390230940414889175499600, 390251394744367402500100,
  390290898459904376509400, 390300895023140026088600, 390330922894480272990600, 390341394744367402500100, 390351014078118425468100,
  390371186800213234516500, 390381138249431656346500, 390391030985751429861500, 390441090292123630157800, 390451394744367402500100,
  390460811556119674148300, 390480869517024597837100, 390520944763400369473600, 390551154954840122663000, 390570968476379698368500,
  390621200153352496968800, 390631284883138535689200, 390640904216889558657000, 390690833431556763693100, 390761394744367402500100,
  390800682216058251428950, 391180682216058251428950, 391310824700010063431500, 391340824700010063431500, 391350809811889407814000,
  391510960363825217131700, 391540951662687518168800, 391641048170777122527400, 391651394744367402500100, 391660817289212848059200,
  391731154954840122663000, 391780727541072856393400, 391801394744367402500100, 391840962995556048869000, 391871154954840122663000,
  391920770716782885423200, 392080873250791641601500, 392301033652576138077700, 392431394744367402500100, 392501256114931290511000,
  392770960363825217131700, 392780951662687518168800, 392800817289212848059200, 392811394744367402500100, 392821048170777122527400,
  392851394744367402500100, 392861256114931290511000, 392921154954840122663000, 392951154954840122663000, 393020873250791641601500,
  393041394744367402500100, 393111033652576138077700, 393181023387160732069400, 393210836019501562475000, 393361256114931290511000,
  393400669114643433432000, 393411256114931290511000, 393611111423032996878400, 393781325429649346505600, 393870707324517857170700,
  393891117485495178522000, 394091325429649346505600, 394381058014784403852600, 394490939356678242446000, 394721200153352496968800,
  394911138249431656346500, 394930951662687518168800, 395110674701878108004400, 395141215568420479694600, 395221123939347292279000,
  395320669114643433432000, 395331256114931290511000, 395370951662687518168800, 395391111423032996878400, 395401123939347292279000,
  395420707324517857170700, 395451325429649346505600, 395481117485495178522000, 395541105707191612883600, 395581325429649346505600,
  395640674701878108004400, 395691058014784403852600, 395750939356678242446000, 395841138249431656346500, 395920734893464541048500,
  396061105707191612883600, 396081233800576159090000, 396120997715176047287900, 396350937273269552161800, 396360663823130833223800,
  396400628732935485107300, 397170658099852569740100, 397191048170777122527400, 397290982030928897990800, 397401025856421991106500,
  397460959073484733540800, 397700922894480272990600, 397910763389562774790500, 398511085640122066668500, 398540865917664333046500,
  398821394744367402500100, 399121175021909668878100, 399141325429649346505600, 399551138249431656346500, 399811045093611255852100,
  400091256114931290511000, 400181186800213234516500, 400231048170777122527400, 400600922894480272990600, 400650763389562774790500,
  400911085640122066668500, 400920865917664333046500, 401041394744367402500100, 401101325429649346505600, 401201175021909668878100,
  401311138249431656346500, 401411045093611255852100, 401501256114931290511000, 401581048170777122527400, 401591186800213234516500,
  401650972793596884889500, 401790994011048879253000, 401800856294861123591200, 402191284883138535689200, 402271233800576159090000,
  402301215568420479694600, 402321065160680802067200, 402511394744367402500100, 402730939356678242446000, 402851030985751429861500,
  402891018624355833143900, 403671233800576159090000, 403721146253702423700100, 404411105707191612883600, 404790972793596884889500,
  404810922894480272990600, 404830856294861123591200, 404901233800576159090000, 404931065160680802067200, 404951215568420479694600,
  404991284883138535689200, 405111394744367402500100, 405150939356678242446000, 405171030985751429861500, 405211018624355833143900,
  405481146253702423700100, 405601105707191612883600, 405651164485858103095600, 405720858146765900314900, 405730861956750523542000,
  405991039209561253558800, 406071200153352496968800, 406130951662687518168800, 406140951662687518168800, 406350808097561709170400,
  406430729716462543757900, 406440729716462543757900, 406541233800576159090000, 406570888484864099803300, 406641003542066859685500,
  406700823371086851563100, 406800682861742496292300, 406920789771021879304300, 407181105707191612883600, 407230882944986160824600,
  407360878265770010148600, 407630938309548255716500, 407860872708784894667600, 408010887226985879117400, 408061284883138535689200,
  408310872708784894667600, 408360887226985879117400, 408401284883138535689200, 408450771499565747447800, 408570771499565747447800,
  408601039209561253558800, 408631039209561253558800]

def emitM27_0 : List Nat := [
  199680526440217753019550, 199690730216333614851000, 199710767213855927472400, 199750720056712202558800, 199761075070683840786300,
  199770523033742511096000, 199780710596927752385300, 199790828106766075065300, 199810803060829878948000, 199820820695968859693000,
  199841120269196215092000, 199851153916419877213400, 199870941093249292286600, 199890864879244087596900, 199900497700263086077100,
  199920779201583653422200, 199930927740110029834300, 199940850421121206486100, 199950985276524520190500, 199960595191554037188500,
  199970849464176104871200, 199980806100577597385000, 200040934193962143591400, 200050828106766075065300, 200061106916056952639800,
  200101204998982253812500, 200110759952602631101500, 200130512373996091982300, 200160830441502474764300, 200200828106766075065300,
  200240978130628121976100, 200250722702369156241900, 200260620741205613786000, 200270790157803904574900, 200290546519843015240800,
  200300907106466730051500, 200350754648329032653400, 200370803060829878948000, 200400900546738481470200, 200410607110405763700300,
  200430530514570683011900, 200440803060829878948000, 200461058365275374469800, 200480758408170388354100, 200520785529728648174200,
  200541204998982253812500, 200560934193962143591400, 200570859472521960569400, 200601314860211120623400, 200610598079292688979100,
  200630891449560660897500, 200640962224158659007300, 200650921677647848190800, 200700678041492485574200, 200800948504046507658800,
  200940748217542309380250, 201020953768419856201000, 201040829657184728661800, 201050796121630536548000, 201070858425391973839800,
  201080577397309598728900, 201100715215002258721400, 201130585354569474360400, 201151204998982253812500, 201160777332370352206950,
  201170813796681710997800, 201220542548201893990300, 201260542548201893990300, 201301135684264197818000, 201320971461490672108900,
  201340727367138035420350, 201351058365275374469800, 201360821412817807554200, 201391025823035331007000, 201400737716098807621900,
  201410752098099751559700, 201420824332733276780500, 201460741526083430848900, 201540694606659401831200, 201591075070683840786300,
  201601075070683840786300, 201610631664854564037900, 201651204998982253812500, 201660863774260468938400, 201671075070683840786300,
  201691245545493064628900, 201700903772824703292300, 201710589938705409184600, 201731314860211120623400, 201740754648329032653400,
  201770992972628633803300, 201790820695968859693000, 201801010407967348281100, 201810863774260468938400, 201821084601701821218900,
  201840941093249292286600, 201850667935179441046200, 201890978130628121976100, 201901153916419877213400, 201950727930519807246000,
  201960776870475766577500, 201970625291941345836650, 202020825825298298448000, 202081031538876715001900, 202100663983297423455300,
  202141106916056952639800, 202151075070683840786300, 202190871778531236292000, 202231044055191010402500, 202250867126529672802700,
  202340691419138548786300, 202370914126892597376400, 202390862681353415719300, 202400843907190989390000, 202410915961806464196000,
  202470867126529672802700, 202481010407967348281100, 202491084601701821218900, 202500781588331794086500, 202541176230775008634300,
  202550710834739992882000, 202560588457196830670400, 202601120269196215092000, 202620628062770223594200, 202661176230775008634300,
  202710555674039631630100, 202721153916419877213400, 202761120269196215092000, 202781245545493064628900, 202801037601338896645200,
  202840890010686915687500, 202911204998982253812500, 203011120269196215092000, 203031153916419877213400, 203040808600707817926800,
  203070692206544191876900, 203080821412817807554200, 203090900546738481470200, 203130948504046507658800, 203141314860211120623400,
  203150805485191039947200, 203160712273613738092000, 203200978130628121976100, 203231245545493064628900, 203290698318425697481400,
  203361037601338896645200, 203390805485191039947200, 203421204998982253812500, 203510941093249292286600, 203551005755965784791800,
  203580714224895160450100, 203650815816952442749800, 203691314860211120623400, 203751095137753387001600, 203810592530643164392000,
  203841135684264197818000, 203901314860211120623400, 203911005755965784791800, 203921245545493064628900, 203941314860211120623400,
  203990687572510466006650, 204151058365275374469800, 204171066369546141823400, 204201058365275374469800, 204211120269196215092000,
  204260564310983646881100, 204301314860211120623400, 204311245545493064628900, 204321120269196215092000, 204391050954478159097500,
  204450645156786353975000, 204460978130628121976100, 204471120269196215092000, 204481135684264197818000, 204490679946311982643600,
  204511066369546141823400, 204581314860211120623400, 204611031538876715001900, 204620758792048019070600, 204651084601701821218900,
  204721050954478159097500, 204890820695968859693000, 204911204998982253812500, 204930992972628633803300, 204981106916056952639800,
  205050936441247728797200, 205061075070683840786300, 205081245545493064628900, 205131176230775008634300, 205210997054828085828900,
  205221176230775008634300, 205230628062770223594200, 205241245545493064628900, 205401084601701821218900, 205421037601338896645200,
  205511135684264197818000, 205530710834739992882000, 205651204998982253812500, 205701245545493064628900, 205721106916056952639800,
  205810755761513069537700, 205961005755965784791800, 205971314860211120623400, 205981020416313203979400, 206051176230775008634300,
  206081314860211120623400, 206130938740199551267200, 206250697899137871477800, 206321176230775008634300, 206330823594722547018200,
  206480959325404971682000, 206521153916419877213400, 206531245545493064628900, 206581120269196215092000, 206590588457196830670400,
  206631120269196215092000, 206671176230775008634300, 206701037601338896645200, 206771204998982253812500, 206871204998982253812500,
  206891245545493064628900, 206930863774260468938400, 206941001310789527708400, 207110719276474174140400, 207251176230775008634300,
  207291075070683840786300, 207311314860211120623400, 207360825825298298448000, 207401075070683840786300, 207451031538876715001900,
  207540795564526031602400, 207571314860211120623400, 207781010407967348281100, 207860959325404971682000, 207911314860211120623400,
  207990729927733125937550, 208000921677647848190800, 208010836947861809470500, 208030537374634454071400, 208040733149095124303000,
  208050943503004450192700, 208060620837964208659600, 208080575288050260419000, 208090556535458690287300, 208110460652120428221800,
  208131314860211120623400, 208180729927733125937550, 208201084601701821218900, 208221314860211120623400, 208231314860211120623400,
  208261153916419877213400, 208370819277505360497400, 208390757265300805991800, 208400759564252628461740, 208410934193962143591400,
  208430826580018861986300, 208440555926628803561800, 208450788074395214290700, 208461066369546141823400, 208480578468860980041500,
  208490868269399255165000, 208510769756365764053400, 208520671888263316709700, 208530727086632942659500, 208540681710026131254300,
  208550992972628633803300, 208560870595085471591700, 208570721106590612380800, 208590770186473953992400, 208600992972628633803300,
  208611015286983765224300, 208641020416313203979400, 208690757265300805991800, 208730850421121206486100, 208741037601338896645200,
  208761037601338896645200, 208770811164950879260400, 208811314860211120623400, 208851084601701821218900, 208891245545493064628900,
  208910635850487569233000, 208920870595085471591700, 208960787560255264248800, 208980948504046507658800, 209011031538876715001900,
  209080800110763439278100, 209110978130628121976100, 209120632640472058574400, 209140796121630536548000, 209151084601701821218900,
  209171204998982253812500, 209180875415295653379600, 209190921677647848190800, 209231075070683840786300, 209281025823035331007000,
  209341066369546141823400, 209351314860211120623400, 209370817186836878566000, 209400846647088408201400, 209411075070683840786300,
  209551314860211120623400, 209561314860211120623400, 209570997054828085828900, 209600787048745197571700, 209610861600261805297800,
  209640644664174520369400, 209731106916056952639800, 209750747872118822571400, 209761176230775008634300, 209770747872118822571400,
  209841176230775008634300, 209860997054828085828900, 209870974740472954408000, 209881120269196215092000, 209891037601338896645200,
  209920943503004450192700, 209951037601338896645200, 209980867126529672802700, 209990828878970684456300, 210021084601701821218900,
  210091095137753387001600, 210101245545493064628900, 210150710596927752385300, 210160731671963392271800, 210170722970825693308800,
  210180807342829597240700, 210190997054828085828900, 210210801870339628316100, 210281050954478159097500, 210290919735839262480700,
  210330537922350169225000, 210350919735839262480700, 210400989050557318475200, 210460895894736917980900, 210501031538876715001900,
  210561245545493064628900, 210630722970825693308800, 210661153916419877213400, 210680844812174541381800, 210690784033441380503000,
  210730722970825693308800, 210781314860211120623400, 210830807342829597240700, 210951245545493064628900, 210971245545493064628900,
  210981106916056952639800, 211031010407967348281100, 211081245545493064628900, 211090997054828085828900, 211231245545493064628900,
  211271245545493064628900, 211290731671963392271800, 211330722970825693308800, 211470631126929652064300, 211491106916056952639800,
  211501245545493064628900, 211510900546738481470200, 211520657352627060661400, 211530891449560660897500, 211551245545493064628900,
  211601001310789527708400, 211611058365275374469800, 211620742501700925385300, 211631153916419877213400, 211651084601701821218900,
  211691106916056952639800, 211700879189328451664300, 211710771052280228303900, 211821153916419877213400, 211830974740472954408000,
  211850879189328451664300, 211870815816952442749800, 211910831232020425475700, 211930985276524520190500, 211950865996574147409400,
  212001153916419877213400, 212020637666655536663200, 212051001310789527708400, 212061314860211120623400, 212071314860211120623400,
  212081204998982253812500, 212090891449560660897500, 212130740239892066608100, 212140771052280228303900, 212180974740472954408000,
  212200847577327674432900, 212321245545493064628900, 212350865996574147409400, 212371106916056952639800, 212401106916056952639800,
  212421010407967348281100, 212431066369546141823400, 212470997054828085828900, 212481066369546141823400, 212530992972628633803300,
  212541245545493064628900, 212631176230775008634300, 212700704604351659266600, 212710717225120190830100, 212810811816418981379900]

def emitM27_1 : List Nat := [
  212950869425481495272700, 213061153916419877213400, 213070971461490672108900, 213101314860211120623400, 213121153916419877213400,
  213130796681856091414900, 213150858425391973839800, 213190807969790898600200, 213200884453701800206500, 213211204998982253812500,
  213220903772824703292300, 213260647277888957138600, 213271005755965784791800, 213301084601701821218900, 213310822862118537811000,
  213321005755965784791800, 213330921677647848190800, 213340919735839262480700, 213350627543827699371600, 213380646900292536185200,
  213400760733856604780800, 213421245545493064628900, 213440821412817807554200, 213450652056073502670100, 213460755018015220786000,
  213550699799934275995500, 213600908815910065981600, 213611135684264197818000, 213631010407967348281100, 213641135684264197818000,
  213651015286983765224300, 213671044055191010402500, 213680943503004450192700, 213711135684264197818000, 213750900546738481470200,
  213781050954478159097500, 213800895894736917980900, 213811058365275374469800, 213820971461490672108900, 213850941093249292286600,
  214000978130628121976100, 214020840366998284298500, 214070773695605935119400, 214131020416313203979400, 214141075070683840786300,
  214260941093249292286600, 214350859472521960569400, 214390843907190989390000, 214420880479668935255000, 214430880479668935255000,
  214480806719774622177000, 214491025823035331007000, 214500891449560660897500, 214510741202981372704300, 214520724870475762374240,
  214570697273484110047300, 214600687008068704039000, 214620912325042047108600, 214630948504046507658800, 214640831232020425475700,
  214650951101595147984800, 214711245545493064628900, 214721066369546141823400, 214740985276524520190500, 214750801870339628316100,
  214760691027748616672600, 214781204998982253812500, 214811095137753387001600, 214831020416313203979400, 214840862681353415719300,
  214861245545493064628900, 214870582279460861046200, 214880801870339628316100, 214900827340478800508300, 214910874188286394198100,
  214940763921377457825700, 214951245545493064628900, 214960719276474174140400, 215051314860211120623400, 215080931996071471713900,
  215120792285543749303300, 215130580776655708295900, 215141084601701821218900, 215160716215010592179600, 215170679423207040888400,
  215180812472159035995700, 215190919735839262480700, 215201031538876715001900, 215210659040430839396600, 215231135684264197818000,
  215250796121630536548000, 215310657492194424558900, 215351015286983765224300, 215470890010686915687500, 215480962224158659007300,
  215510652586578725639500, 215550817878881163023400, 215560817878881163023400, 215581245545493064628900, 215601153916419877213400,
  215611025823035331007000, 215660848516301709416800, 215681176230775008634300, 215700796121630536548000, 215741084601701821218900,
  215760877915425873921300, 215781135684264197818000, 215841245545493064628900, 215920786033508051170000, 215961204998982253812500,
  216080762714119334398800, 216191025823035331007000, 216211245545493064628900, 216281001310789527708400, 216290855348226107164500,
  216440650741994146564300, 216581204998982253812500, 216701314860211120623400, 216711314860211120623400, 216741245545493064628900,
  216761044055191010402500, 216791314860211120623400, 216880895894736917980900, 216960890010686915687500, 216970934193962143591400,
  217001135684264197818000, 217040682963399745979950, 217051204998982253812500, 217091135684264197818000, 217191135684264197818000,
  217290786033508051170000, 217330732851918085387200, 217381176230775008634300, 217411314860211120623400, 217460797245237863240500,
  217541314860211120623400, 217591245545493064628900, 217671025823035331007000, 217760764734390066150700, 217961075070683840786300,
  218070902146772616114300, 218091314860211120623400, 218300814465580526077600, 218341314860211120623400, 218390923657910577808700,
  218550652586578725639500, 218681204998982253812500, 218800934193962143591400, 218831245545493064628900, 218880806719774622177000,
  218911314860211120623400, 218920762314917207445000, 218950971461490672108900, 218981245545493064628900, 219141075070683840786300,
  219160771925648225179400, 219271204998982253812500, 219320785529728648174200, 219340921677647848190800, 219431058365275374469800,
  219471176230775008634300, 219491314860211120623400, 219591204998982253812500, 219781204998982253812500, 219870626309244117141700,
  219891314860211120623400, 220250536039055335915800, 220291314860211120623400, 220300867126529672802700, 220391005755965784791800,
  220471204998982253812500, 220571135684264197818000, 220630934193962143591400, 220681025823035331007000, 220701044055191010402500,
  220751095137753387001600, 221200992972628633803300, 221321058365275374469800, 221511135684264197818000, 221960828106766075065300,
  222350622202507798351000, 222380900546738481470200, 222400741202981372704300, 222421010407967348281100, 222530828106766075065300,
  222561314860211120623400, 222601010407967348281100, 222660897421484131059800, 222690475992434202542400, 222700734950945674570800,
  222751075070683840786300, 222780792824628612790950, 222801001310789527708400, 222811204998982253812500, 222830475992434202542400,
  222851010407967348281100, 222900828106766075065300, 222910792824628612790950, 222940734950945674570800, 222961010407967348281100,
  223030843010323991114000, 223070678213166347479700, 223120753913031602127500, 223170978130628121976100, 223200765143388591303300,
  223301050954478159097500, 223311314860211120623400, 223361204998982253812500, 223381044055191010402500, 223430859472521960569400,
  223460997054828085828900, 223500943503004450192700, 223521245545493064628900, 223620838642817640847800, 223631044055191010402500,
  223740736170472983952700, 223781015286983765224300, 224020921677647848190800, 224041204998982253812500, 224061095137753387001600,
  224111044055191010402500, 224181031538876715001900, 224191204998982253812500, 224321314860211120623400, 224351095137753387001600,
  224361314860211120623400, 224451095137753387001600, 224661066369546141823400, 224670793366635359724900, 224780733149095124303000,
  224841037601338896645200, 224950965209454973975400, 224960953768419856201000, 224971095137753387001600, 225190881786877091990300,
  225210777332370352206950, 225220673023717527002300, 225300872976150340963600, 225330838642817640847800, 225610905425754898413400,
  225641044055191010402500, 225701020416313203979400, 225750885814267005784300, 225761135684264197818000, 225771031538876715001900,
  225801050954478159097500, 225811245545493064628900, 226091153916419877213400, 226120636414504856859100, 226151095137753387001600,
  226160865996574147409400, 226180948504046507658800, 226220688330089846852500, 226351120269196215092000, 226361204998982253812500,
  226451066369546141823400, 226590971461490672108900, 226651066369546141823400, 226860647404071939180900, 226871075070683840786300,
  226960819984222082806500, 226971044055191010402500, 227210848516301709416800, 227271044055191010402500, 227371075070683840786300,
  227441031538876715001900, 227461095137753387001600, 227511204998982253812500, 227630525242150259074300, 227660795564526031602400,
  227670795564526031602400, 227680879189328451664300, 227771314860211120623400, 227810722434631379170300, 227880805485191039947200,
  227910823594722547018200, 227970663240903516327050, 227990819277505360497400, 228051106916056952639800, 228060927740110029834300,
  228100696239348730574000, 228121020416313203979400, 228151135684264197818000, 228161135684264197818000, 228180695828670535308700,
  228211084601701821218900, 228230418826274471414450, 228250488966164821777500, 228260473145027397022300, 228270551040386692045600,
  228291176230775008634300, 228300923657910577808700, 228331066369546141823400, 228360872976150340963600, 228390842121429249389300,
  228401050954478159097500, 228420981639760103103000, 228501314860211120623400, 228550737405056566182600, 228560812472159035995700,
  228570801870339628316100, 228591050954478159097500, 228620841240366281174000, 228630974740472954408000, 228641314860211120623400,
  228650854343192521814200, 228681005755965784791800, 228701314860211120623400, 228711153916419877213400, 228720907106466730051500,
  228741176230775008634300, 228801095137753387001600, 228850723240004859879900, 228870723240004859879900, 228900981639760103103000,
  228941050954478159097500, 228990867126529672802700, 229000914126892597376400, 229020879189328451664300, 229090917831019765411300,
  229140707786438320374400, 229151204998982253812500, 229181066369546141823400, 229191120269196215092000, 229200891449560660897500,
  229251176230775008634300, 229351314860211120623400, 229370917831019765411300, 229411066369546141823400, 229421204998982253812500,
  229481245545493064628900, 229531314860211120623400, 229581135684264197818000, 229621314860211120623400, 229690813796681710997800,
  229820623685481095456000, 229860981639760103103000, 229870719795955861850800, 229891095137753387001600, 229920666396687557098200,
  229930853348159436497500, 229950877915425873921300, 229961010407967348281100, 229991095137753387001600, 230021010407967348281100,
  230040868269399255165000, 230051245545493064628900, 230130785529728648174200, 230160678385135435432300, 230200974740472954408000,
  230351245545493064628900, 230391066369546141823400, 230410696033798812364400, 230430968286620840650700, 230451095137753387001600,
  230470938740199551267200, 230481075070683840786300, 230521314860211120623400, 230591314860211120623400, 230640642236870884748800,
  230671245545493064628900, 230680827340478800508300, 230891245545493064628900, 230901245545493064628900, 230921135684264197818000,
  231100714224895160450100, 231130797811811616808250, 231250898971902784656300, 231421120269196215092000, 231431005755965784791800,
  231491095137753387001600, 231561075070683840786300, 231571314860211120623400, 231581044055191010402500, 231590797811811616808250,
  231940856363463253566200, 231951015286983765224300, 232071245545493064628900, 232101314860211120623400, 232190925678181309560700,
  232241204998982253812500, 232281314860211120623400, 232290891449560660897500, 232340934193962143591400, 232441176230775008634300,
  232521135684264197818000, 232671204998982253812500, 232701153916419877213400, 232730985276524520190500, 232811245545493064628900,
  232851314860211120623400, 232911135684264197818000, 233051106916056952639800, 233071314860211120623400, 233080938740199551267200,
  233211245545493064628900, 233320892909440603012800, 233381135684264197818000, 233441075070683840786300, 233481095137753387001600]

def emitM27_2 : List Nat := [
  233510892909440603012800, 233521044055191010402500, 233721075070683840786300, 233760470699490674659200, 233800791216014837628600,
  233811245545493064628900, 233830888592223416492000, 233840720843085848580300, 233850649316176083858650, 233860992972628633803300,
  233890639633173506449200, 233910741850232823266000, 233950783048211736201800, 233961001310789527708400, 233980544019144394886700,
  234010965209454973975400, 234030649316176083858650, 234160544019144394886700, 234181245545493064628900, 234250650872627737969800,
  234290965209454973975400, 234310756135345280598500, 234320667780260742363300, 234330617881144130464500, 234350755761513069537700,
  234360900546738481470200, 234390647656916574516700, 234431106916056952639800, 234451314860211120623400, 234470450759963406371100,
  234480695215798341171350, 234490981639760103103000, 234500667162974831655100, 234510997054828085828900, 234520782559213206782600,
  234530592822827448228500, 234540811816418981379900, 234560965209454973975400, 234570900546738481470200, 234580892909440603012800,
  234590655282159724492300, 234600905425754898413400, 234621135684264197818000, 234660768901659706207500, 234670774143033974611600,
  234700774143033974611600, 234720959325404971682000, 234761025823035331007000, 234771135684264197818000, 234780487603150278133100,
  234801037601338896645200, 234810760342466672667200, 234850858425391973839800, 234860750315521356299700, 234870978130628121976100,
  234901204998982253812500, 234920665939717988091750, 234930951101595147984800, 234940713978892576363900, 234950997054828085828900,
  235000670129624866502100, 235060851387312297659800, 235071135684264197818000, 235190903772824703292300, 235211058365275374469800,
  235251314860211120623400, 235260811816418981379900, 235270650872627737969800, 235280841240366281174000, 235290900546738481470200,
  235311245545493064628900, 235320858425391973839800, 235361314860211120623400, 235410965209454973975400, 235420592822827448228500,
  235441135684264197818000, 235451001310789527708400, 235460817186836878566000, 235470978130628121976100, 235480965209454973975400,
  235510722434631379170300, 235530840366998284298500, 235561044055191010402500, 235580715464068389966550, 235590715464068389966550,
  235600941093249292286600, 235610806719774622177000, 235620818575748094632700, 235630978130628121976100, 235651001310789527708400,
  235660965209454973975400, 235670459739404120271900, 235690573946566728610600, 235720414540891745966200, 235740968286620840650700,
  235761066369546141823400, 235780708714519227821800, 235811005755965784791800, 235880891449560660897500, 235910885814267005784300,
  236011084601701821218900, 236091001310789527708400, 236120579937128659289950, 236130910555084337168500, 236140887193599219018000,
  236171010407967348281100, 236181058365275374469800, 236210499755716552121050, 236241075070683840786300, 236271010407967348281100,
  236310948504046507658800, 236370762714119334398800, 236460974740472954408000, 236480985276524520190500, 236521058365275374469800,
  236530884453701800206500, 236600974740472954408000, 236630859472521960569400, 236650616111186420524300, 236731106916056952639800,
  236741153916419877213400, 236791135684264197818000, 236811245545493064628900, 236821120269196215092000, 236960921677647848190800,
  236971031538876715001900, 237030843907190989390000, 237051314860211120623400, 237060997054828085828900, 237070880479668935255000,
  237141135684264197818000, 237210727648432173081900, 237231037601338896645200, 237250829657184728661800, 237310822134842604903000,
  237351025823035331007000, 237360870595085471591700, 237451153916419877213400, 237691135684264197818000, 237771025823035331007000,
  237801135684264197818000, 237811010407967348281100, 237821153916419877213400, 237860941093249292286600, 237891314860211120623400,
  237920836111036842418900, 237980880479668935255000, 238030953768419856201000, 238051025823035331007000, 238111314860211120623400,
  238150656243045635155900, 238211314860211120623400, 238221084601701821218900, 238281020416313203979400, 238300929845450949617600,
  238310843907190989390000, 238330992972628633803300, 238421010407967348281100, 238491075070683840786300, 238601153916419877213400,
  238791314860211120623400, 238831314860211120623400, 238880997054828085828900, 238961245545493064628900, 238991245545493064628900,
  239130887193599219018000, 239681135684264197818000, 239881314860211120623400, 239921245545493064628900, 239940829657184728661800,
  239961135684264197818000, 240130779674397773016800, 240181153916419877213400, 240290753547400481816400, 240300690249534572467200,
  240330936441247728797200, 240340898971902784656300, 240370968286620840650700, 240380910555084337168500, 240390862681353415719300,
  240400817186836878566000, 240411106916056952639800, 240431020416313203979400, 240491106916056952639800, 240501058365275374469800,
  240511176230775008634300, 240520639750064226947400, 240551120269196215092000, 240611015286983765224300, 240620823594722547018200,
  240651245545493064628900, 240660853348159436497500, 240670616296029356702600, 240690865996574147409400, 240700890010686915687500,
  240720599164574659059800, 240760609328926786648200, 240850753183101353966300, 240891314860211120623400, 240910965209454973975400,
  240921314860211120623400, 240930671405559241878200, 241010865996574147409400, 241020989050557318475200, 241031314860211120623400,
  241070599164574659059800, 241091066369546141823400, 241101176230775008634300, 241180989050557318475200, 241191314860211120623400,
  241200765966438504954800, 241251095137753387001600, 241281314860211120623400, 241331314860211120623400, 241491075070683840786300,
  241591314860211120623400, 241611120269196215092000, 241631245545493064628900, 241711176230775008634300, 241780804873568338203600,
  241790640572147541433200, 241800989050557318475200, 241821106916056952639800, 241840934193962143591400, 241850804873568338203600,
  241860900546738481470200, 241871245545493064628900, 241880865996574147409400, 241890907106466730051500, 241900787048745197571700,
  241910663834377068308500, 241960772365209372483200, 241980631557037842003400, 241990956508317275012500, 242071031538876715001900,
  242081050954478159097500, 242110815816952442749800, 242120708714519227821800, 242131245545493064628900, 242151314860211120623400,
  242170943503004450192700, 242180796121630536548000, 242200748564163107028900, 242220837791748674057000, 242230897421484131059800,
  242291245545493064628900, 242300891449560660897500, 242311106916056952639800, 242350815816952442749800, 242370801280367415597200,
  242450962224158659007300, 242461245545493064628900, 242470713244495150788100, 242481245545493064628900, 242541176230775008634300,
  242641075070683840786300, 242650869425481495272700, 242780931996071471713900, 242870943503004450192700, 242881050954478159097500,
  242900897421484131059800, 242910663834377068308500, 242971245545493064628900, 242981245545493064628900, 243001050954478159097500,
  243071058365275374469800, 243100639516419260845500, 243110629635954215435600, 243140545238947185982700, 243200601132367394584800,
  243220853348159436497500, 243230885814267005784300, 243241031538876715001900, 243281204998982253812500, 243310929845450949617600,
  243350731379137414362900, 243391005755965784791800, 243410811816418981379900, 243430738970033732895400, 243440758025760744513700,
  243510925678181309560700, 243520755761513069537700, 243570872976150340963600, 243580974740472954408000, 243691135684264197818000,
  243730755761513069537700, 243750921677647848190800, 243780921677647848190800, 243800985276524520190500, 243960872976150340963600,
  244020908815910065981600, 244030943503004450192700, 244050914126892597376400, 244071314860211120623400, 244130900546738481470200,
  244180985276524520190500, 244210712757876185670800, 244220712757876185670800, 244250798954681199170600, 244260907106466730051500,
  244290945972265709229800, 244320959325404971682000, 244330914126892597376400, 244411005755965784791800, 244430953768419856201000,
  244440943503004450192700, 244481025823035331007000, 244490784529720314715900, 244521031538876715001900, 244530934193962143591400,
  244561245545493064628900, 244590658052419979425900, 244600812472159035995700, 244640815138983744212000, 244651031538876715001900,
  244660782072594241665350, 244691135684264197818000, 244710643200733768525600, 244780754648329032653400, 244801135684264197818000,
  244810738028111541246200, 244901015286983765224300, 244940767213855927472400, 245010784529720314715900, 245030450936829388097200,
  245050953768419856201000, 245090817186836878566000, 245150649316176083858650, 245170779674397773016800, 245180948504046507658800,
  245251084601701821218900, 245300992972628633803300, 245350579487978080660300, 245371106916056952639800, 245411314860211120623400,
  245440659895136897242400, 245481245545493064628900, 245551106916056952639800, 245611314860211120623400, 245650860530732893623100,
  245711120269196215092000, 245730907106466730051500, 245760730796045383283600, 245771176230775008634300, 245901135684264197818000,
  245941025823035331007000, 245981135684264197818000, 246041106916056952639800, 246050550272628602142100, 246090910555084337168500,
  246150871778531236292000, 246350804873568338203600, 246421204998982253812500, 246460863774260468938400, 246511095137753387001600,
  246531314860211120623400, 246561058365275374469800, 246580863774260468938400, 246611075070683840786300, 246740981639760103103000,
  246801135684264197818000, 246810619396324632524650, 246850848516301709416800, 246870962224158659007300, 246880978130628121976100,
  246941058365275374469800, 246980948504046507658800, 246991314860211120623400, 247011245545493064628900, 247031314860211120623400,
  247081204998982253812500, 247090965209454973975400, 247131005755965784791800, 247161204998982253812500, 247241176230775008634300,
  247350781588331794086500, 247361135684264197818000, 247420965209454973975400, 247481153916419877213400, 247511204998982253812500,
  247540948504046507658800, 247640985276524520190500, 247730981639760103103000, 247781025823035331007000, 247851135684264197818000,
  247891176230775008634300, 247961050954478159097500, 247990877915425873921300, 248000679423207040888400, 248011058365275374469800,
  248070989050557318475200, 248181245545493064628900, 248191031538876715001900, 248251153916419877213400, 248271314860211120623400,
  248331037601338896645200, 248400992972628633803300, 248451120269196215092000, 248470927740110029834300, 248581084601701821218900]

def emitM27_3 : List Nat := [
  248590590223403110377400, 248711245545493064628900, 248751245545493064628900, 248870948504046507658800, 248951204998982253812500,
  249040867126529672802700, 249071176230775008634300, 249100902146772616114300, 249170853348159436497500, 249301095137753387001600,
  249350693800203418158100, 249361245545493064628900, 249421050954478159097500, 249440865996574147409400, 249500631557037842003400,
  249511245545493064628900, 249741314860211120623400, 249761106916056952639800, 249771106916056952639800, 250001135684264197818000,
  250031204998982253812500, 250100768901659706207500, 250140948504046507658800, 250330708714519227821800, 250350959325404971682000,
  250421245545493064628900, 250621314860211120623400, 250781245545493064628900, 250790730796045383283600, 250801153916419877213400,
  250840989050557318475200, 250870825825298298448000, 250881095137753387001600, 250960763921377457825700, 250981001310789527708400,
  251011245545493064628900, 251020981639760103103000, 251040618446649878799000, 251051153916419877213400, 251061176230775008634300,
  251120890010686915687500, 251141075070683840786300, 251191204998982253812500, 251211314860211120623400, 251291176230775008634300,
  251301245545493064628900, 251321176230775008634300, 251360890010686915687500, 251391245545493064628900, 251400968286620840650700,
  251420974740472954408000, 251430974740472954408000, 251510885814267005784300, 251520907106466730051500, 251531066369546141823400,
  251591204998982253812500, 251601314860211120623400, 251631037601338896645200, 251650786539838246824600, 251660751739032938486850,
  251691153916419877213400, 251711044055191010402500, 251760699586941650213050, 251871204998982253812500, 251910881786877091990300,
  251960867126529672802700, 252001314860211120623400, 252060997054828085828900, 252150542548201893990300, 252161066369546141823400,
  252261135684264197818000, 252331066369546141823400, 252371025823035331007000, 252381245545493064628900, 252390941093249292286600,
  252400968286620840650700, 252420690249534572467200, 252501245545493064628900, 252520814465580526077600, 252531031538876715001900,
  252591058365275374469800, 252651005755965784791800, 252760959325404971682000, 252821050954478159097500, 252861245545493064628900,
  252890521301472561703500, 252931245545493064628900, 252961120269196215092000, 252981153916419877213400, 252991066369546141823400,
  253000779201583653422200, 253021106916056952639800, 253031245545493064628900, 253070997054828085828900, 253080862681353415719300,
  253151245545493064628900, 253170965209454973975400, 253181058365275374469800, 253210992972628633803300, 253271153916419877213400,
  253290921677647848190800, 253321120269196215092000, 253401314860211120623400, 253421314860211120623400, 253430971461490672108900,
  253450910555084337168500, 253510974740472954408000, 253530959325404971682000, 253611135684264197818000, 253701176230775008634300,
  253741314860211120623400, 253811037601338896645200, 253861245545493064628900, 253910659324521939557000, 254020936441247728797200,
  254051135684264197818000, 254101314860211120623400, 254391106916056952639800, 254420978130628121976100, 254471245545493064628900,
  254541314860211120623400, 254630800693855470357500, 254801025823035331007000, 254840852362929792196400, 254961031538876715001900,
  255050819277505360497400, 255060968286620840650700, 255090968286620840650700, 255131314860211120623400, 255141176230775008634300,
  255161245545493064628900, 255201176230775008634300, 255361245545493064628900, 255520771488010765199500, 255580838642817640847800,
  255620867126529672802700, 255630978130628121976100, 255691314860211120623400, 255821037601338896645200, 255880812472159035995700,
  255971314860211120623400, 256131106916056952639800, 256151314860211120623400, 256220715713756409825200, 256281153916419877213400,
  256321314860211120623400, 256541245545493064628900, 256581245545493064628900, 256611314860211120623400, 256710715713756409825200,
  257050610719044741142400, 257111176230775008634300, 257211176230775008634300, 257321135684264197818000, 257460992972628633803300,
  257710690249534572467200, 257741245545493064628900, 257781153916419877213400, 257871314860211120623400, 257881245545493064628900,
  257930965209454973975400, 257990992972628633803300, 258020974740472954408000, 258051176230775008634300, 258061001310789527708400,
  258101001310789527708400, 258181314860211120623400, 258541314860211120623400, 258560948504046507658800, 258761058365275374469800,
  258781135684264197818000, 258800951101595147984800, 258841245545493064628900, 259001314860211120623400, 259030941093249292286600,
  259100981639760103103000, 259130797811811616808250, 259150907106466730051500, 259180912325042047108600, 259190631234283392916800,
  259251084601701821218900, 259280914126892597376400, 259291314860211120623400, 259350727367138035420350, 259371015286983765224300,
  259421031538876715001900, 259431025823035331007000, 259440951101595147984800, 259450794459542412943900, 259471075070683840786300,
  259501120269196215092000, 259541037601338896645200, 259550902146772616114300, 259580871778531236292000, 259640639750064226947400,
  259681001310789527708400, 259721075070683840786300, 259751095137753387001600, 259761001310789527708400, 259861075070683840786300,
  259910463883643561879400, 259950985276524520190500, 259960927740110029834300, 260000786033508051170000, 260011176230775008634300,
  260031106916056952639800, 260051106916056952639800, 260070929845450949617600, 260121025823035331007000, 260151245545493064628900,
  260271245545493064628900, 260291245545493064628900, 260310445460254368415200, 260320588667501850348350, 260391245545493064628900,
  260410567212973004232900, 260441095137753387001600, 260450724051917303730350, 260531314860211120623400, 260590989050557318475200,
  260630992972628633803300, 260710822862118537811000, 260800789110673917845300, 260821058365275374469800, 260850743817509383136400,
  260860929845450949617600, 260871314860211120623400, 260880951101595147984800, 260890981639760103103000, 260921204998982253812500,
  260930746162675486641500, 260941314860211120623400, 260971204998982253812500, 261020632640472058574400, 261031050954478159097500,
  261060874188286394198100, 261121106916056952639800, 261140894390949181526900, 261180823594722547018200, 261220956508317275012500,
  261240700656470561887800, 261260516721052962616500, 261271120269196215092000, 261310798954681199170600, 261320891449560660897500,
  261331135684264197818000, 261430744815853781554800, 261440989050557318475200, 261490615926684523167500, 261521135684264197818000,
  261570682066532747703900, 261590968286620840650700, 261611015286983765224300, 261661153916419877213400, 261740752098099751559700,
  261771095137753387001600, 261780632640472058574400, 261790921677647848190800, 261850771488010765199500, 261870771488010765199500,
  261911001310789527708400, 261941204998982253812500, 261950550655770833297700, 261961066369546141823400, 261980956508317275012500,
  261991153916419877213400, 262021025823035331007000, 262071020416313203979400, 262121135684264197818000, 262160871778531236292000,
  262220650091373764290500, 262230670288229182065600, 262280895894736917980900, 262300879189328451664300, 262340716215010592179600,
  262381176230775008634300, 262421245545493064628900, 262490956508317275012500, 262571058365275374469800, 262620738341100842138950,
  262630912325042047108600, 262741176230775008634300, 262801314860211120623400, 262831245545493064628900, 262861025823035331007000,
  262921084601701821218900, 263081066369546141823400, 263130550655770833297700, 263290721901296781634000, 263320989050557318475200,
  263361050954478159097500, 263420989050557318475200, 263481204998982253812500, 263520965209454973975400, 263540927740110029834300,
  263560817186836878566000, 263600678041492485574200, 263610859472521960569400, 263640743157440980001300, 263660877915425873921300,
  263671095137753387001600, 263681135684264197818000, 263710781588331794086500, 263760723509910556796400, 263770587273751065970200,
  263790971461490672108900, 263810931996071471713900, 263881020416313203979400, 263891066369546141823400, 263910704828315918617050,
  263950813796681710997800, 263970603139660804189000, 263991044055191010402500, 264061245545493064628900, 264080639750064226947400,
  264100872976150340963600, 264110777332370352206950, 264120685149279127229900, 264130927740110029834300, 264150855348226107164500,
  264170816499548949789800, 264200936441247728797200, 264211001310789527708400, 264261001310789527708400, 264321037601338896645200,
  264341314860211120623400, 264350776410704841714500, 264381015286983765224300, 264411066369546141823400, 264460684050366969670300,
  264470883111399766992400, 264481037601338896645200, 264490861600261805297800, 264511204998982253812500, 264541020416313203979400,
  264600782559213206782600, 264631075070683840786300, 264641204998982253812500, 264650968286620840650700, 264690714224895160450100,
  264720793911595836481300, 264741314860211120623400, 264770985276524520190500, 264800697899137871477800, 264810595191554037188500,
  264820953768419856201000, 264831245545493064628900, 264851314860211120623400, 264921204998982253812500, 264940708249402110248650,
  264950953768419856201000, 264971031538876715001900, 265001031538876715001900, 265071084601701821218900, 265121066369546141823400,
  265171058365275374469800, 265190580259190129294200, 265221153916419877213400, 265240851387312297659800, 265250870595085471591700,
  265311135684264197818000, 265351314860211120623400, 265390959325404971682000, 265521245545493064628900, 265641005755965784791800,
  265750705729222912853600, 265760872976150340963600, 265771314860211120623400, 265791204998982253812500, 265800921677647848190800,
  265841075070683840786300, 265861001310789527708400, 265891314860211120623400, 265970855348226107164500, 266041066369546141823400,
  266070875415295653379600, 266090804265663730565400, 266110797245237863240500, 266121176230775008634300, 266131176230775008634300,
  266231037601338896645200, 266241204998982253812500, 266291176230775008634300, 266310953768419856201000, 266331314860211120623400,
  266350921677647848190800, 266381015286983765224300, 266391120269196215092000, 266410650221159635850500, 266431204998982253812500,
  266460881786877091990300, 266470965209454973975400, 266570800110763439278100, 266661135684264197818000, 266790951101595147984800,
  266801037601338896645200, 266810771925648225179400, 266840536246567342316200, 266851204998982253812500, 266861176230775008634300]

def emitM27_4 : List Nat := [
  266881135684264197818000, 266900683505406492913900, 266910934193962143591400, 266931314860211120623400, 267001031538876715001900,
  267040948504046507658800, 267050827340478800508300, 267070771925648225179400, 267081314860211120623400, 267221176230775008634300,
  267241245545493064628900, 267250884453701800206500, 267261075070683840786300, 267270965209454973975400, 267281204998982253812500,
  267511015286983765224300, 267530811164950879260400, 267570735558850282209100, 267581153916419877213400, 267721204998982253812500,
  267751075070683840786300, 267761314860211120623400, 267810968286620840650700, 267860881786877091990300, 267900695828670535308700,
  267920915961806464196000, 267971066369546141823400, 267990951101595147984800, 268031176230775008634300, 268161066369546141823400,
  268181106916056952639800, 268200885814267005784300, 268251084601701821218900, 268271025823035331007000, 268341050954478159097500,
  268371050954478159097500, 268391135684264197818000, 268401120269196215092000, 268421106916056952639800, 268470921677647848190800,
  268620705503234116109900, 268650978130628121976100, 268660881786877091990300, 268691120269196215092000, 268740943503004450192700,
  268811050954478159097500, 268851204998982253812500, 268911245545493064628900, 268930959325404971682000, 268981044055191010402500,
  269281314860211120623400, 269411204998982253812500, 269430981639760103103000, 269540793911595836481300, 269630959325404971682000,
  269671135684264197818000, 269700698318425697481400, 269761031538876715001900, 269791314860211120623400, 269821314860211120623400,
  269841176230775008634300, 269871314860211120623400, 269890850421121206486100, 269971031538876715001900, 269991106916056952639800,
  270001176230775008634300, 270011095137753387001600, 270040864879244087596900, 270121135684264197818000, 270140951101595147984800,
  270151314860211120623400, 270291135684264197818000, 270361204998982253812500, 270531176230775008634300, 270540691027748616672600,
  270711245545493064628900, 270821204998982253812500, 270831031538876715001900, 270881066369546141823400, 270911204998982253812500,
  271121050954478159097500, 271231204998982253812500, 271331025823035331007000, 271351095137753387001600, 271380758408170388354100,
  271461135684264197818000, 271550864879244087596900, 271591245545493064628900, 271610953768419856201000, 271690941093249292286600,
  271710951101595147984800, 271780914126892597376400, 271851135684264197818000, 271920936441247728797200, 271930650221159635850500,
  271941075070683840786300, 271971153916419877213400, 271981245545493064628900, 272110884453701800206500, 272251204998982253812500,
  272311001310789527708400, 272430914126892597376400, 272571176230775008634300, 272640864879244087596900, 272920965209454973975400,
  272981066369546141823400, 273471176230775008634300, 273551314860211120623400, 273591015286983765224300, 273721314860211120623400,
  273861106916056952639800, 273871135684264197818000, 273961120269196215092000, 274020776410704841714500, 274101176230775008634300,
  274141135684264197818000, 274241204998982253812500, 274250898971902784656300, 274260883111399766992400, 274270818575748094632700,
  274310974740472954408000, 274420945972265709229800, 274530747527884403474200, 274620978130628121976100, 274630848516301709416800,
  274680941093249292286600, 274720974740472954408000, 274890883111399766992400, 274901015286983765224300, 274910594370960100156150,
  274921245545493064628900, 274930810517699428698700, 274940627233749931546800, 274950981639760103103000, 274981204998982253812500,
  275061245545493064628900, 275110971461490672108900, 275120908815910065981600, 275151050954478159097500, 275271204998982253812500,
  275301020416313203979400, 275311066369546141823400, 275441066369546141823400, 275561204998982253812500, 275731314860211120623400,
  275751010407967348281100, 275781037601338896645200, 275830831232020425475700, 275890776870475766577500, 275951153916419877213400,
  275970759952602631101500, 275991314860211120623400, 276030895894736917980900, 276040691223252100252950, 276050868269399255165000,
  276110809874610395669800, 276271204998982253812500, 276531314860211120623400, 276630653521789282667500, 276650762314917207445000,
  276680792824628612790950, 276821095137753387001600, 276830792824628612790950, 276871204998982253812500, 276911095137753387001600,
  276981106916056952639800, 276991106916056952639800, 277000637666655536663200, 277040542814041660651300, 277051120269196215092000,
  277131025823035331007000, 277140925678181309560700, 277190869425481495272700, 277210653521789282667500, 277331245545493064628900,
  277350962224158659007300, 277391075070683840786300, 277400956508317275012500, 277410596549040946295300, 277430611862919949984800,
  277440959325404971682000, 277480879189328451664300, 277541020416313203979400, 277621135684264197818000, 277640862681353415719300,
  277661010407967348281100, 277701084601701821218900, 277741245545493064628900, 277770978130628121976100, 277781095137753387001600,
  277790798954681199170600, 277811084601701821218900, 277840981639760103103000, 277851095137753387001600, 277921120269196215092000,
  277941075070683840786300, 278010771925648225179400, 278030938740199551267200, 278070929845450949617600, 278091075070683840786300,
  278111153916419877213400, 278121314860211120623400, 278131176230775008634300, 278151314860211120623400, 278180951101595147984800,
  278190813132227439131000, 278270732851918085387200, 278321044055191010402500, 278330997054828085828900, 278350722434631379170300,
  278361106916056952639800, 278371245545493064628900, 278381066369546141823400, 278390912325042047108600, 278411204998982253812500,
  278441075070683840786300, 278490836947861809470500, 278500921677647848190800, 278591005755965784791800, 278610721106590612380800,
  278631010407967348281100, 278670931996071471713900, 278721245545493064628900, 278731075070683840786300, 278740686820627224604000,
  278770989050557318475200, 278801010407967348281100, 278861314860211120623400, 278871176230775008634300, 278880693599601545471600,
  278891314860211120623400, 278911066369546141823400, 278981245545493064628900, 279000997054828085828900, 279010555321483235226200,
  279050907106466730051500, 279081135684264197818000, 279111314860211120623400, 279150907106466730051500, 279161245545493064628900,
  279221204998982253812500, 279271135684264197818000, 279291245545493064628900, 279310610981856981769300, 279340844812174541381800,
  279410756135345280598500, 279431314860211120623400, 279451075070683840786300, 279460658192968140299300, 279540962224158659007300,
  279551245545493064628900, 279571176230775008634300, 279631031538876715001900, 279641066369546141823400, 279651050954478159097500,
  279660959325404971682000, 279690835281156560949300, 279711314860211120623400, 279731005755965784791800, 279761314860211120623400,
  279781058365275374469800, 279791176230775008634300, 279820678557400766576900, 279851031538876715001900, 279861135684264197818000,
  279871066369546141823400, 279881204998982253812500, 279930956508317275012500, 279940962224158659007300, 280001204998982253812500,
  280031314860211120623400, 280060874188286394198100, 280090831232020425475700, 280100910555084337168500, 280141031538876715001900,
  280151245545493064628900, 280201084601701821218900, 280230562027034449898700, 280241120269196215092000, 280251314860211120623400,
  280341095137753387001600, 280370785028474465819800, 280401005755965784791800, 280411050954478159097500, 280441075070683840786300,
  280511245545493064628900, 280521050954478159097500, 280591005755965784791800, 280611245545493064628900, 280621120269196215092000,
  280681037601338896645200, 280700703935452844186900, 280711001310789527708400, 280721058365275374469800, 280731204998982253812500,
  280751245545493064628900, 280791314860211120623400, 280850938740199551267200, 280920817186836878566000, 281031106916056952639800,
  281071135684264197818000, 281081204998982253812500, 281181120269196215092000, 281200997054828085828900, 281260858425391973839800,
  281290962224158659007300, 281321066369546141823400, 281331204998982253812500, 281341025823035331007000, 281361025823035331007000,
  281420863774260468938400, 281450840366998284298500, 281470945972265709229800, 281490759564252628461740, 281501120269196215092000,
  281511075070683840786300, 281541005755965784791800, 281551010407967348281100, 281650603383266283977100, 281700759564252628461740,
  281721204998982253812500, 281760974740472954408000, 281801031538876715001900, 281861044055191010402500, 281891153916419877213400,
  281920974740472954408000, 281930839501192009987000, 281951176230775008634300, 282010753913031602127500, 282041176230775008634300,
  282071001310789527708400, 282101245545493064628900, 282121245545493064628900, 282160989050557318475200, 282181314860211120623400,
  282221031538876715001900, 282271314860211120623400, 282371245545493064628900, 282460823594722547018200, 282480723240004859879900,
  282511031538876715001900, 282541314860211120623400, 282551314860211120623400, 282631075070683840786300, 282671153916419877213400,
  282701314860211120623400, 282710879189328451664300, 282860934193962143591400, 282931314860211120623400, 282941245545493064628900,
  283040733746111822953400, 283101066369546141823400, 283161066369546141823400, 283170929845450949617600, 283191314860211120623400,
  283220989050557318475200, 283250951101595147984800, 283300771925648225179400, 283310753913031602127500, 283351058365275374469800,
  283421044055191010402500, 283561314860211120623400, 283591037601338896645200, 283631015286983765224300, 283641037601338896645200,
  283661001310789527708400, 283691204998982253812500, 283711314860211120623400, 283721066369546141823400, 283730959325404971682000,
  283781106916056952639800, 283850699799934275995500, 283861314860211120623400, 283901106916056952639800, 283920908815910065981600,
  283931015286983765224300, 283960951101595147984800, 284041314860211120623400, 284081135684264197818000, 284141106916056952639800,
  284150699799934275995500, 284171031538876715001900, 284181176230775008634300, 284360829657184728661800, 284421314860211120623400,
  284500653521789282667500, 284580965209454973975400, 284590872976150340963600, 284650945972265709229800, 284661058365275374469800,
  284671245545493064628900, 284720974740472954408000, 284781176230775008634300, 284810959325404971682000, 284861314860211120623400,
  284870962224158659007300, 284970997054828085828900, 285000907106466730051500, 285040927740110029834300, 285070925678181309560700]

def emitM27_5 : List Nat := [
  285080925678181309560700, 285100992972628633803300, 285141245545493064628900, 285160703935452844186900, 285250948504046507658800,
  285260931996071471713900, 285271204998982253812500, 285361314860211120623400, 285401245545493064628900, 285441204998982253812500,
  285480919735839262480700, 285511245545493064628900, 285521176230775008634300, 285561314860211120623400, 285570948504046507658800,
  285581106916056952639800, 285671001310789527708400, 285800555321483235226200, 285831314860211120623400, 285950971461490672108900,
  286081075070683840786300, 286091058365275374469800, 286101135684264197818000, 286111066369546141823400, 286261153916419877213400,
  286390678557400766576900, 286401106916056952639800, 286411135684264197818000, 286441005755965784791800, 286541204998982253812500,
  286551245545493064628900, 286570908815910065981600, 286661314860211120623400, 286681245545493064628900, 286771314860211120623400,
  286891314860211120623400, 286931153916419877213400, 286981050954478159097500, 286990874188286394198100, 287011176230775008634300,
  287030962224158659007300, 287041314860211120623400, 287391153916419877213400, 287480890010686915687500, 287511245545493064628900,
  287531204998982253812500, 287601015286983765224300, 287651245545493064628900, 287710934193962143591400, 287721106916056952639800,
  287790877915425873921300, 287831037601338896645200, 287841176230775008634300, 287890715215002258721400, 287901095137753387001600,
  287961204998982253812500, 287990981639760103103000, 288000812472159035995700, 288051058365275374469800, 288091204998982253812500,
  288140809874610395669800, 288181245545493064628900, 288211245545493064628900, 288280981639760103103000, 288431066369546141823400,
  288441120269196215092000, 288510733149095124303000, 288561176230775008634300, 288570874188286394198100, 288580620741205613786000,
  288601037601338896645200, 288611058365275374469800, 288651314860211120623400, 288660953768419856201000, 288671314860211120623400,
  288720839501192009987000, 288741204998982253812500, 288790803060829878948000, 288881314860211120623400, 288891314860211120623400,
  288911084601701821218900, 288950923657910577808700, 289021120269196215092000, 289031050954478159097500, 289041204998982253812500,
  289051314860211120623400, 289071314860211120623400, 289090929845450949617600, 289111020416313203979400, 289161314860211120623400,
  289191050954478159097500, 289371066369546141823400, 289471314860211120623400, 289490887193599219018000, 289531095137753387001600,
  289541135684264197818000, 289610789110673917845300, 289661037601338896645200, 289751314860211120623400, 289771245545493064628900,
  289820907106466730051500, 290011037601338896645200, 290021176230775008634300, 290040941093249292286600, 290061245545493064628900,
  290100981639760103103000, 290170923657910577808700, 290221245545493064628900, 290290887193599219018000, 290300992972628633803300,
  290310837791748674057000, 290331120269196215092000, 290360812472159035995700, 290381095137753387001600, 290601314860211120623400,
  290660934193962143591400, 290711135684264197818000, 290741153916419877213400, 290761120269196215092000, 290801314860211120623400,
  290881314860211120623400, 290961245545493064628900, 291050929845450949617600, 291181058365275374469800, 291211204998982253812500,
  291231153916419877213400, 291281037601338896645200, 291341245545493064628900, 291381050954478159097500, 291410752458460501889600,
  291451314860211120623400, 291510832028837390393300, 291580981639760103103000, 291651084601701821218900, 291660981639760103103000,
  291721314860211120623400, 291901204998982253812500, 291971314860211120623400, 292001204998982253812500, 292110953768419856201000,
  292290796121630536548000, 292321245545493064628900, 292330590223403110377400, 292370863774260468938400, 292380934193962143591400,
  292391020416313203979400, 292401314860211120623400, 292411204998982253812500, 292421020416313203979400, 292450925678181309560700,
  292460414540891745966200, 292471314860211120623400, 292551050954478159097500, 292750836947861809470500, 292791066369546141823400,
  292811066369546141823400, 292820971461490672108900, 292870810517699428698700, 292890865996574147409400, 293050534843904081327450,
  293121176230775008634300, 293131075070683840786300, 293341204998982253812500, 293660923657910577808700, 293691120269196215092000,
  293760923657910577808700, 293781176230775008634300, 293800879189328451664300, 293920927740110029834300, 293990807969790898600200,
  294200770618440068444100, 294220919735839262480700, 294241314860211120623400, 294321314860211120623400, 294350965209454973975400,
  294360965209454973975400, 294541025823035331007000, 294631245545493064628900, 294651314860211120623400, 294670997054828085828900,
  294811204998982253812500, 294821135684264197818000, 294831001310789527708400, 294860540663421138554940, 294920968286620840650700,
  294941120269196215092000, 294951095137753387001600, 295090919735839262480700, 295181314860211120623400, 295440770618440068444100,
  295541314860211120623400, 295571025823035331007000, 295601015286983765224300, 295630540663421138554940, 295720694404434863754450,
  295750867126529672802700, 295770507769602241841600, 295790612841140289430900, 295851314860211120623400, 295901153916419877213400,
  295950698108562031789300, 296021106916056952639800, 296091106916056952639800, 296110978130628121976100, 296140997054828085828900,
  296150861600261805297800, 296160992972628633803300, 296180797245237863240500, 296261044055191010402500, 296401245545493064628900,
  296421106916056952639800, 296450807342829597240700, 296471153916419877213400, 296571176230775008634300, 296640842121429249389300,
  296711245545493064628900, 296770875415295653379600, 296781314860211120623400, 296940992972628633803300, 296990992972628633803300,
  297020751024744187248850, 297051084601701821218900, 297110857389113270285100, 297121176230775008634300, 297231120269196215092000,
  297300989050557318475200, 297340552789702436797200, 297361176230775008634300, 297380885814267005784300, 297401106916056952639800,
  297421044055191010402500, 297441120269196215092000, 297470903772824703292300, 297480885814267005784300, 297560898971902784656300,
  297710997054828085828900, 297861314860211120623400, 297871050954478159097500, 297880881786877091990300, 297900601291476417809000,
  297910822134842604903000, 297951176230775008634300, 297960804873568338203600, 298010981639760103103000, 298020698108562031789300,
  298051204998982253812500, 298140804873568338203600, 298151245545493064628900, 298220936441247728797200, 298251245545493064628900,
  298311010407967348281100, 298330857389113270285100, 298350943503004450192700, 298401044055191010402500, 298521176230775008634300,
  298541075070683840786300, 298591314860211120623400, 298621245545493064628900, 298651314860211120623400, 298720861600261805297800,
  298851044055191010402500, 298980898971902784656300, 299061084601701821218900, 299141084601701821218900, 299160971461490672108900,
  299260655145640931958300, 299341120269196215092000, 299421153916419877213400, 299431095137753387001600, 299561245545493064628900,
  299731120269196215092000, 299760887193599219018000, 299781135684264197818000, 299800974740472954408000, 299830654195192500801900,
  299861058365275374469800, 299920738655072842605800, 299950810517699428698700, 299961075070683840786300, 300000683686730205332000,
  300010725972415287335300, 300020747872118822571400, 300030914126892597376400, 300051050954478159097500, 300070968286620840650700,
  300110989050557318475200, 300211176230775008634300, 300280888592223416492000, 300311084601701821218900, 300361176230775008634300,
  300410774592472933395500, 300431314860211120623400, 300500868269399255165000, 300530943503004450192700, 300581066369546141823400,
  300590989050557318475200, 300640853348159436497500, 300681245545493064628900, 300700943503004450192700, 300791135684264197818000,
  300861075070683840786300, 300871245545493064628900, 300901066369546141823400, 300951095137753387001600, 300971106916056952639800,
  301051204998982253812500, 301270948504046507658800, 301961176230775008634300, 302190948504046507658800, 302461176230775008634300,
  303281204998982253812500, 303310699586941650213050, 303320697273484110047300, 303330688711042688519200, 303340635513597862622500,
  303400923657910577808700, 303420927740110029834300, 303430594817721826127700, 303471153916419877213400, 303581025823035331007000,
  303611245545493064628900, 303820763114921474152650, 303991314860211120623400, 304021084601701821218900, 304061037601338896645200,
  304080736477692887649700, 304100721370791558664700, 304151245545493064628900, 304160945972265709229800, 304170623785132324429900,
  304181135684264197818000, 304220817186836878566000, 304240885814267005784300, 304270761917302369481100, 304301245545493064628900,
  304311084601701821218900, 304330910555084337168500, 304350623785132324429900, 304360885814267005784300, 304390755018015220786000,
  304421075070683840786300, 304460891449560660897500, 304501135684264197818000, 304520821412817807554200, 304560662064419358368400,
  304601010407967348281100, 304621314860211120623400, 304651001310789527708400, 304730888592223416492000, 304751245545493064628900,
  304950690443521054249800, 304961120269196215092000, 305091314860211120623400, 305111245545493064628900, 305221153916419877213400,
  305240948504046507658800, 305260867126529672802700, 305281084601701821218900, 305291204998982253812500, 305550965209454973975400,
  305561204998982253812500, 305630890010686915687500, 305660959325404971682000, 305721314860211120623400, 305851314860211120623400,
  305971314860211120623400, 305991245545493064628900, 306060659040430839396600, 306511066369546141823400, 306551153916419877213400,
  306831176230775008634300, 306841204998982253812500, 306930731965649359602700, 306971314860211120623400, 306991106916056952639800,
  307011120269196215092000, 307031106916056952639800, 307070690443521054249800, 307190943503004450192700, 307221314860211120623400,
  307291135684264197818000, 307401044055191010402500, 307421050954478159097500, 307460895894736917980900, 307571084601701821218900,
  307681314860211120623400, 307720905425754898413400, 307781106916056952639800, 307791245545493064628900, 307841245545493064628900,
  308050842121429249389300, 308131084601701821218900, 308310895894736917980900, 308441245545493064628900, 308621001310789527708400,
  308651075070683840786300, 308671314860211120623400, 308711050954478159097500, 308741314860211120623400, 308791153916419877213400]

def emitM27_6 : List Nat := [
  308870687950582749997250, 308890842121429249389300, 308961204998982253812500, 309131025823035331007000, 309221106916056952639800,
  309281153916419877213400, 309381050954478159097500, 309521066369546141823400, 309561120269196215092000, 309671120269196215092000,
  309771084601701821218900, 309901245545493064628900, 310140943503004450192700, 310181106916056952639800, 310251245545493064628900,
  310341037601338896645200, 310360682963399745979950, 310380925678181309560700, 310401204998982253812500, 310410968286620840650700,
  310481001310789527708400, 310620711073119128409650, 310660811164950879260400, 310681075070683840786300, 310690936441247728797200,
  310700746842950218916700, 310720965209454973975400, 310770691812066362775300, 310851020416313203979400, 310870985276524520190500,
  310951314860211120623400, 310980757644807902847000, 311030770186473953992400, 311050936441247728797200, 311080770186473953992400,
  311090902146772616114300, 311180985276524520190500, 311190523691159049789600, 311420738028111541246200, 311430737716098807621900,
  311460902146772616114300, 311500682963399745979950, 311531314860211120623400, 311551204998982253812500, 311610877915425873921300,
  311621245545493064628900, 311630925678181309560700, 311660959325404971682000, 311680612306379656771400, 311770515802522946231200,
  311790552887789742356400, 311850638587260427435500, 311861245545493064628900, 311920898971902784656300, 312031245545493064628900,
  312060855348226107164500, 312071245545493064628900, 312091075070683840786300, 312150831232020425475700, 312160794459542412943900,
  312270953768419856201000, 312321025823035331007000, 312371015286983765224300, 312430925678181309560700, 312461015286983765224300,
  312551314860211120623400, 312810794459542412943900, 312831025823035331007000, 312871153916419877213400, 312910978130628121976100,
  312931095137753387001600, 313020725144824356949300, 313090831232020425475700, 313100849464176104871200, 313191005755965784791800,
  313371025823035331007000, 313441176230775008634300, 313480951101595147984800, 313511245545493064628900, 313541020416313203979400,
  313611095137753387001600, 313681245545493064628900, 313831120269196215092000, 313841314860211120623400, 313890959325404971682000,
  313981135684264197818000, 314010959325404971682000, 314021066369546141823400, 314061245545493064628900, 314311135684264197818000,
  314350588737701923431400, 314461176230775008634300, 314491314860211120623400, 314540997054828085828900, 314551050954478159097500,
  314560817186836878566000, 314610858425391973839800, 314710817878881163023400, 314780997054828085828900, 314810803661432284969200,
  314820956508317275012500, 314871095137753387001600, 314911031538876715001900, 315031245545493064628900, 315050832832054560119800,
  315081044055191010402500, 315091314860211120623400, 315131245545493064628900, 315150941093249292286600, 315181314860211120623400,
  315251245545493064628900, 315260981639760103103000, 315320914126892597376400, 315391084601701821218900, 315481176230775008634300,
  315581044055191010402500, 315610962224158659007300, 315671314860211120623400, 315681176230775008634300, 315690989050557318475200,
  315721044055191010402500, 315740859472521960569400, 315791120269196215092000, 315811314860211120623400, 315841106916056952639800,
  315911314860211120623400, 316010943503004450192700, 316090759952602631101500, 316141153916419877213400, 316160910555084337168500,
  316311314860211120623400, 316391120269196215092000, 316490842121429249389300, 316571245545493064628900, 316591153916419877213400,
  316610997054828085828900, 316651066369546141823400, 316800956508317275012500, 316840910555084337168500, 316890989050557318475200,
  317161031538876715001900, 317211120269196215092000, 317770910555084337168500, 317871153916419877213400, 318051153916419877213400,
  318071314860211120623400, 318091066369546141823400, 318200759952602631101500, 318391066369546141823400, 318401176230775008634300,
  318541245545493064628900, 318581314860211120623400, 318590693800203418158100, 318671031538876715001900, 318691066369546141823400,
  318810951101595147984800, 318900978130628121976100, 319031204998982253812500, 319080989050557318475200, 319141314860211120623400,
  319181106916056952639800, 319211135684264197818000, 319250989050557318475200, 319290992972628633803300, 319340739285989761932250,
  319580985276524520190500, 319661314860211120623400, 319681153916419877213400, 319751106916056952639800, 319950934193962143591400,
  320000696858545755366200, 320040835281156560949300, 320050630591882896781200, 320061204998982253812500, 320071314860211120623400,
  320091314860211120623400, 320110867126529672802700, 320130647530414343858050, 320160943503004450192700, 320191120269196215092000,
  320200902146772616114300, 320230927740110029834300, 320320727086632942659500, 320340711551588940743300, 320391095137753387001600,
  320430748564163107028900, 320480897421484131059800, 320570694202618448130700, 320581153916419877213400, 320680968286620840650700,
  320800892909440603012800, 320931314860211120623400, 320970968286620840650700, 321021120269196215092000, 321041010407967348281100,
  321100731671963392271800, 321130781588331794086500, 321140849464176104871200, 321151066369546141823400, 321211005755965784791800,
  321311314860211120623400, 321430959325404971682000, 321470723780546716570700, 321561095137753387001600, 321600696858545755366200,
  321621084601701821218900, 321720771488010765199500, 321730570318455450454650, 321770974740472954408000, 321781037601338896645200,
  321841050954478159097500, 321891120269196215092000, 321910914126892597376400, 322021095137753387001600, 322100903772824703292300,
  322151314860211120623400, 322180887193599219018000, 322270953768419856201000, 322330908815910065981600, 322390664731244066584550,
  322441020416313203979400, 322491314860211120623400, 322640938740199551267200, 322651031538876715001900, 322910843907190989390000,
  323051031538876715001900, 323170804873568338203600, 323180992972628633803300, 323210968286620840650700, 323260936441247728797200,
  323271031538876715001900, 323401095137753387001600, 323501075070683840786300, 323530923657910577808700, 323610839501192009987000,
  323621106916056952639800, 323651245545493064628900, 323711204998982253812500, 323771084601701821218900, 323800644296301634623200,
  323921084601701821218900, 323960992972628633803300, 323991075070683840786300, 324031044055191010402500, 324061135684264197818000,
  324171204998982253812500, 324180630591882896781200, 324201135684264197818000, 324211314860211120623400, 324220835281156560949300,
  324260696858545755366200, 324271314860211120623400, 324280664731244066584550, 324310902146772616114300, 324330927740110029834300,
  324340974740472954408000, 324350647530414343858050, 324371031538876715001900, 324381050954478159097500, 324410867126529672802700,
  324450943503004450192700, 324461120269196215092000, 324470887193599219018000, 324481153916419877213400, 324511020416313203979400,
  324520968286620840650700, 324540897421484131059800, 324551095137753387001600, 324610694202618448130700, 324621084601701821218900,
  324630723780546716570700, 324661010407967348281100, 324670892909440603012800, 324681314860211120623400, 324691075070683840786300,
  324721106916056952639800, 324731120269196215092000, 324751066369546141823400, 324760968286620840650700, 324790781588331794086500,
  324811314860211120623400, 324821005755965784791800, 324830923657910577808700, 324850959325404971682000, 324870644296301634623200,
  324890992972628633803300, 324900903772824703292300, 324930992972628633803300, 324961120269196215092000, 324990839501192009987000,
  325000570318455450454650, 325010914126892597376400, 325020771488010765199500, 325041084601701821218900, 325081095137753387001600,
  325110696858545755366200, 325151314860211120623400, 325191314860211120623400, 325310908815910065981600, 325360953768419856201000,
  325371031538876715001900, 325441075070683840786300, 325521044055191010402500, 325540936441247728797200, 325561084601701821218900,
  325601204998982253812500, 325641204998982253812500, 325731037601338896645200, 325781120269196215092000, 325881120269196215092000,
  325921204998982253812500, 325931037601338896645200, 325971010407967348281100, 325990569272542371441000, 326091204998982253812500,
  326171095137753387001600, 326181153916419877213400, 326220775953038138973400, 326261031538876715001900, 326411204998982253812500,
  326450569272542371441000, 326481204998982253812500, 326500769328099584853300, 326540647277888957138600, 326730948504046507658800,
  326760817878881163023400, 326800948504046507658800, 326810607110405763700300, 326900837791748674057000, 326971075070683840786300,
  327010883111399766992400, 327031314860211120623400, 327050974740472954408000, 327090858425391973839800, 327140618163497259225100,
  327181120269196215092000, 327220962224158659007300, 327240971461490672108900, 327281075070683840786300, 327360813132227439131000,
  327371245545493064628900, 327411153916419877213400, 327451245545493064628900, 327520841240366281174000, 327531314860211120623400,
  327611075070683840786300, 327631010407967348281100, 327640870595085471591700, 327680717989455122086900, 327690602654222957709200,
  327710850421121206486100, 327730956508317275012500, 327800867126529672802700, 327840925678181309560700, 327890883111399766992400,
  327911120269196215092000, 327921245545493064628900, 328190814465580526077600, 328220727930519807246000, 328241106916056952639800,
  328310962224158659007300, 328341135684264197818000, 328351314860211120623400, 328381314860211120623400, 328421314860211120623400,
  328441044055191010402500, 328520785529728648174200, 328540678213166347479700, 328561106916056952639800, 328580865996574147409400,
  328620815816952442749800, 328740971461490672108900, 328790785529728648174200, 328800971461490672108900, 328820879189328451664300,
  328831106916056952639800, 328861135684264197818000, 328871044055191010402500, 328930962224158659007300, 328951031538876715001900,
  328990834458106647297800, 329010834458106647297800, 329021204998982253812500, 329030874188286394198100, 329051084601701821218900,
  329180914126892597376400, 329280981639760103103000, 329291037601338896645200, 329331095137753387001600, 329371001310789527708400,
  329430910555084337168500, 329460770618440068444100, 329611176230775008634300, 329641314860211120623400, 329660992972628633803300,
  329721001310789527708400, 329820923657910577808700, 329880740239892066608100, 329930765143388591303300, 329960989050557318475200]

def emitM27_7 : List Nat := [
  329970943503004450192700, 330071314860211120623400, 330091095137753387001600, 330161135684264197818000, 330181314860211120623400,
  330210590866951988576500, 330291176230775008634300, 330320968286620840650700, 330330968286620840650700, 330341031538876715001900,
  330501084601701821218900, 330670978130628121976100, 330730978130628121976100, 330800962224158659007300, 330980857389113270285100,
  331081020416313203979400, 331341066369546141823400, 331391084601701821218900, 331440981639760103103000, 331500817186836878566000,
  331511025823035331007000, 331790872976150340963600, 332101245545493064628900, 332130992972628633803300, 332171314860211120623400,
  332181050954478159097500, 332250962224158659007300, 332400857389113270285100, 332510771488010765199500, 332560828106766075065300,
  332580585830922875963700, 332611176230775008634300, 332670731087166404029400, 332680843907190989390000, 332751204998982253812500,
  332821314860211120623400, 332870820695968859693000, 332880671888263316709700, 332890907106466730051500, 332901314860211120623400,
  332930836947861809470500, 332980836111036842418900, 333080870595085471591700, 333101015286983765224300, 333110974740472954408000,
  333221015286983765224300, 333231314860211120623400, 333241075070683840786300, 333281075070683840786300, 333331095137753387001600,
  333361314860211120623400, 333371050954478159097500, 333821075070683840786300, 333901153916419877213400, 333910581623290527717200,
  333940839501192009987000, 333950797245237863240500, 333990797245237863240500, 334020809235630585792600, 334051245545493064628900,
  334060810517699428698700, 334100956508317275012500, 334181314860211120623400, 334231314860211120623400, 334260992972628633803300,
  334330992972628633803300, 334451314860211120623400, 334461066369546141823400, 334491314860211120623400, 334520828106766075065300,
  334541314860211120623400, 334551050954478159097500, 334570773695605935119400, 334590702610930169184800, 334631058365275374469800,
  334641135684264197818000, 334651084601701821218900, 334691010407967348281100, 334791075070683840786300, 334801176230775008634300,
  334841031538876715001900, 334851050954478159097500, 334870749611293093758400, 334891020416313203979400, 334911314860211120623400,
  334920959325404971682000, 334950992972628633803300, 335031245545493064628900, 335071176230775008634300, 335090620258812010700700,
  335101025823035331007000, 335210582082157278460300, 335291314860211120623400, 335311020416313203979400, 335380773695605935119400,
  335390910555084337168500, 335410992972628633803300, 335501044055191010402500, 335511314860211120623400, 335591037601338896645200,
  335641058365275374469800, 335751245545493064628900, 335760879189328451664300, 335860721106590612380800, 335871314860211120623400,
  335890989050557318475200, 335900765143388591303300, 335921204998982253812500, 335931031538876715001900, 336001050954478159097500,
  336031058365275374469800, 336060929845450949617600, 336071176230775008634300, 336090811816418981379900, 336100929845450949617600,
  336161176230775008634300, 336171314860211120623400, 336181044055191010402500, 336261153916419877213400, 336311314860211120623400,
  336331075070683840786300, 336350691027748616672600, 336371001310789527708400, 336381204998982253812500, 336391153916419877213400,
  336430898971902784656300, 336470716215010592179600, 336550894390949181526900, 336591120269196215092000, 336730897421484131059800,
  336740772365209372483200, 336780843010323991114000, 336821314860211120623400, 336831135684264197818000, 336861044055191010402500,
  336881314860211120623400, 336941120269196215092000, 336981153916419877213400, 337041176230775008634300, 337051314860211120623400,
  337070795564526031602400, 337130613109596826497800, 337140599086662695632800, 337151176230775008634300, 337191314860211120623400,
  337210981639760103103000, 337220989050557318475200, 337250951101595147984800, 337281204998982253812500, 337291135684264197818000,
  337380843010323991114000, 337521314860211120623400, 337560971461490672108900, 337611314860211120623400, 337651245545493064628900,
  337750647277888957138600, 337770897421484131059800, 337780649832306261881200, 337891245545493064628900, 337951120269196215092000,
  337991031538876715001900, 338020613109596826497800, 338041015286983765224300, 338050931996071471713900, 338091245545493064628900,
  338211245545493064628900, 338290832028837390393300, 338300938740199551267200, 338310875415295653379600, 338320673514315403887750,
  338360720056712202558800, 338481314860211120623400, 338530981639760103103000, 338620945972265709229800, 338650763921377457825700,
  338730962224158659007300, 338791075070683840786300, 338830673678384349633800, 338891176230775008634300, 338910925678181309560700,
  338941075070683840786300, 339011005755965784791800, 339051037601338896645200, 339091245545493064628900, 339220657771914886665000,
  339310953768419856201000, 339401176230775008634300, 339450734950945674570800, 339671245545493064628900, 339701075070683840786300,
  339761314860211120623400, 339801050954478159097500, 339831120269196215092000, 339851245545493064628900, 339881153916419877213400,
  339930894390949181526900, 339950817186836878566000, 340031314860211120623400, 340130862681353415719300, 340151106916056952639800,
  340281010407967348281100, 340300599086662695632800, 340441204998982253812500, 340740888592223416492000, 340810919735839262480700,
  340830953768419856201000, 340851037601338896645200, 340930898971902784656300, 341031204998982253812500, 341051314860211120623400,
  341061204998982253812500, 341071314860211120623400, 341080905425754898413400, 341091245545493064628900, 341210908815910065981600,
  341220971461490672108900, 341371176230775008634300, 341570875415295653379600, 341621204998982253812500, 341640981639760103103000,
  341711245545493064628900, 341740981639760103103000, 341800962224158659007300, 341830956508317275012500, 341841314860211120623400,
  341861106916056952639800, 341961204998982253812500, 342030945972265709229800, 342041153916419877213400, 342141176230775008634300,
  342170673514315403887750, 342181066369546141823400, 342241084601701821218900, 342491314860211120623400, 342530862681353415719300,
  342550891449560660897500, 342610782559213206782600, 342681204998982253812500, 342690809235630585792600, 342760800693855470357500,
  342770716215010592179600, 342810965209454973975400, 342941176230775008634300, 342970905425754898413400, 342981204998982253812500,
  342991010407967348281100, 343081204998982253812500, 343091075070683840786300, 343101066369546141823400, 343110749611293093758400,
  343140981639760103103000, 343151314860211120623400, 343341314860211120623400, 343381314860211120623400, 343490578468860980041500,
  343601204998982253812500, 343671245545493064628900, 343820684232682425821900, 343851050954478159097500, 343890805485191039947200,
  343940829657184728661800, 343950829657184728661800, 343980855348226107164500, 343991245545493064628900, 344021204998982253812500,
  344111005755965784791800, 344251005755965784791800, 344301095137753387001600, 344421204998982253812500, 344530992972628633803300,
  345030948504046507658800, 345071084601701821218900, 345101314860211120623400, 345211015286983765224300, 345271204998982253812500,
  345320945972265709229800, 345600870595085471591700, 345620985276524520190500, 345681204998982253812500, 345881050954478159097500,
  346331015286983765224300, 346381058365275374469800, 346491245545493064628900, 346621095137753387001600, 346761037601338896645200,
  346781001310789527708400, 347010898971902784656300, 347461044055191010402500, 347840910555084337168500, 347961015286983765224300,
  348021005755965784791800, 348291058365275374469800, 348490915961806464196000, 348501204998982253812500, 348511314860211120623400,
  348700992972628633803300, 348801031538876715001900, 348851120269196215092000, 348920692206544191876900, 348930874188286394198100,
  348990855348226107164500, 349000971461490672108900, 349031044055191010402500, 349051176230775008634300, 349070699799934275995500,
  349090796121630536548000, 349130912325042047108600, 349150872976150340963600, 349170941093249292286600, 349200908815910065981600,
  349230839501192009987000, 349241176230775008634300, 349261204998982253812500, 349431314860211120623400, 349450832028837390393300,
  349661176230775008634300, 349741204998982253812500, 349870997054828085828900, 349891075070683840786300, 350091106916056952639800,
  350101084601701821218900, 350131084601701821218900, 350281031538876715001900, 350290757644807902847000, 350321153916419877213400,
  350331153916419877213400, 350360941093249292286600, 350371084601701821218900, 350410549986232224999200, 350591245545493064628900,
  350601095137753387001600, 350651204998982253812500, 350681176230775008634300, 350980936441247728797200, 351261176230775008634300,
  351400811164950879260400, 351671314860211120623400, 351831176230775008634300, 351861075070683840786300, 351990586928327579161500,
  352011025823035331007000, 352031314860211120623400, 352110672535514767271450, 352151025823035331007000, 352191176230775008634300,
  352420741526083430848900, 352501106916056952639800, 352580834458106647297800, 352611075070683840786300, 352640823594722547018200,
  352650672535514767271450, 352660823594722547018200, 352681025823035331007000, 352691176230775008634300, 352721075070683840786300,
  352730834458106647297800, 352801106916056952639800, 352820934193962143591400, 352990870595085471591700, 353021245545493064628900,
  353201245545493064628900, 353280817878881163023400, 353351314860211120623400, 353361066369546141823400, 353381314860211120623400,
  353470971461490672108900, 353501314860211120623400, 353520948504046507658800, 353701066369546141823400, 353730860530732893623100,
  353770968286620840650700, 353820858425391973839800, 354101066369546141823400, 354120923657910577808700, 354131135684264197818000,
  354220962224158659007300, 354251044055191010402500, 354261044055191010402500, 354271314860211120623400, 354330788591192230134900,
  354371245545493064628900, 354411025823035331007000, 354421153916419877213400, 354431095137753387001600, 354491176230775008634300,
  354631050954478159097500, 354651095137753387001600, 354751106916056952639800, 354801314860211120623400, 354860879189328451664300,
  354880828106766075065300, 354941153916419877213400, 354961314860211120623400, 354981204998982253812500, 355041245545493064628900,
  355160808600707817926800, 355190771925648225179400, 355271176230775008634300, 355311044055191010402500, 355381058365275374469800]

def emitM27_8 : List Nat := [
  355421106916056952639800, 355431314860211120623400, 355630965209454973975400, 355650953768419856201000, 355691204998982253812500,
  355741245545493064628900, 355760807342829597240700, 355820647530414343858050, 355840897421484131059800, 355851120269196215092000,
  355860943503004450192700, 356001176230775008634300, 356061058365275374469800, 356090575042801823577000, 356130897421484131059800,
  356161314860211120623400, 356240912325042047108600, 356410997054828085828900, 356570875415295653379600, 356721058365275374469800,
  356731106916056952639800, 356741037601338896645200, 356761010407967348281100, 356861095137753387001600, 356950992972628633803300,
  356960925678181309560700, 357030814465580526077600, 357091095137753387001600, 357121025823035331007000, 357220831232020425475700,
  357310934193962143591400, 357401245545493064628900, 357451066369546141823400, 357530934193962143591400, 357551314860211120623400,
  357570971461490672108900, 357580925678181309560700, 357591314860211120623400, 357600948504046507658800, 357631204998982253812500,
  357680968286620840650700, 357701106916056952639800, 357740860530732893623100, 357751066369546141823400, 357770875415295653379600,
  357790858425391973839800, 357801135684264197818000, 357821058365275374469800, 357890962224158659007300, 357910923657910577808700,
  357930992972628633803300, 357941066369546141823400, 357990788591192230134900, 358020828106766075065300, 358051025823035331007000,
  358091245545493064628900, 358101044055191010402500, 358111314860211120623400, 358131153916419877213400, 358141095137753387001600,
  358171044055191010402500, 358210879189328451664300, 358251314860211120623400, 358261314860211120623400, 358281204998982253812500,
  358291153916419877213400, 358311044055191010402500, 358320807342829597240700, 358340647530414343858050, 358351025823035331007000,
  358411245545493064628900, 358421314860211120623400, 358430771925648225179400, 358451058365275374469800, 358481176230775008634300,
  358500808600707817926800, 358510897421484131059800, 358521245545493064628900, 358550965209454973975400, 358581120269196215092000,
  358590943503004450192700, 358610953768419856201000, 358710912325042047108600, 358721245545493064628900, 358731058365275374469800,
  358740897421484131059800, 358751314860211120623400, 358780575042801823577000, 358791176230775008634300, 358800997054828085828900,
  358851037601338896645200, 358871106916056952639800, 358891010407967348281100, 358950814465580526077600, 359100883111399766992400,
  359121120269196215092000, 359181176230775008634300, 359200830441502474764300, 359370729066895672277500, 359460754648329032653400,
  359470852362929792196400, 359481135684264197818000, 359611314860211120623400, 359701095137753387001600, 359801106916056952639800,
  359871001310789527708400, 359970670129624866502100, 359980647151864995909900, 360001084601701821218900, 360010943503004450192700,
  360020968286620840650700, 360110807969790898600200, 360121135684264197818000, 360181245545493064628900, 360200646649351375642600,
  360230948504046507658800, 360270900546738481470200, 360281176230775008634300, 360290978130628121976100, 360320860530732893623100,
  360331044055191010402500, 360390992972628633803300, 360400819984222082806500, 360510750315521356299700, 360581058365275374469800,
  360600776410704841714500, 360621005755965784791800, 360651245545493064628900, 360660790157803904574900, 360670919735839262480700,
  360681095137753387001600, 360701015286983765224300, 360740934193962143591400, 360840867126529672802700, 360930742175436361903700,
  360941135684264197818000, 361041106916056952639800, 361060765554066786568600, 361110992972628633803300, 361231025823035331007000,
  361250670129624866502100, 361260647151864995909900, 361271084601701821218900, 361290968286620840650700, 361300943503004450192700,
  361311135684264197818000, 361320790157803904574900, 361331025823035331007000, 361360934193962143591400, 361430807969790898600200,
  361451095137753387001600, 361461044055191010402500, 361481176230775008634300, 361490646649351375642600, 361530900546738481470200,
  361540860530732893623100, 361550978130628121976100, 361580819984222082806500, 361601245545493064628900, 361640992972628633803300,
  361691058365275374469800, 361711015286983765224300, 361751005755965784791800, 361760776410704841714500, 361791245545493064628900,
  361820867126529672802700, 361870742175436361903700, 361881135684264197818000, 361900765554066786568600, 361921106916056952639800,
  361940992972628633803300, 361951025823035331007000, 361960879189328451664300, 361991066369546141823400, 362030701087505712000100,
  362081314860211120623400, 362121176230775008634300, 362130780149458048876500, 362150761521262247871400, 362251176230775008634300,
  362290763921377457825700, 362340806719774622177000, 362490780149458048876500, 362591314860211120623400, 362750919735839262480700,
  362841204998982253812500, 362910792285543749303300, 363191031538876715001900, 363210968286620840650700, 363350766380517771557900,
  363391153916419877213400, 363410978130628121976100, 363671153916419877213400, 363680978130628121976100, 364601176230775008634300,
  364811314860211120623400, 364930792285543749303300, 365230962224158659007300, 365540971461490672108900, 365551204998982253812500,
  365570635850487569233000, 365620968286620840650700, 365751058365275374469800, 365871314860211120623400, 366031106916056952639800,
  366131153916419877213400, 366170938740199551267200, 366280808600707817926800, 366290978130628121976100, 366370875415295653379600,
  366501245545493064628900, 366551066369546141823400, 366641050954478159097500, 366770959325404971682000, 366810868269399255165000,
  366851314860211120623400, 366921314860211120623400, 367100971461490672108900, 367111204998982253812500, 367130968286620840650700,
  367160868269399255165000, 367181245545493064628900, 367191058365275374469800, 367221106916056952639800, 367281314860211120623400,
  367310978130628121976100, 367330938740199551267200, 367381153916419877213400, 367410808600707817926800, 367450875415295653379600,
  367531066369546141823400, 367551050954478159097500, 367570959325404971682000, 367611314860211120623400, 367621314860211120623400,
  367630869425481495272700, 367661058365275374469800, 367671001310789527708400, 367710962224158659007300, 367741245545493064628900,
  367811058365275374469800, 367840941093249292286600, 367860870595085471591700, 367930965209454973975400, 367970805485191039947200,
  367980635850487569233000, 368010914126892597376400, 368021204998982253812500, 368050874188286394198100, 368070897421484131059800,
  368080848516301709416800, 368140776870475766577500, 368160783048211736201800, 368170888592223416492000, 368241031538876715001900,
  368270670606194473803500, 368280753913031602127500, 368291245545493064628900, 368300702610930169184800, 368310858425391973839800,
  368361066369546141823400, 368371204998982253812500, 368380850421121206486100, 368420687761367934793450, 368451050954478159097500,
  368480905425754898413400, 368551135684264197818000, 368570968286620840650700, 368611066369546141823400, 368641066369546141823400,
  368651204998982253812500, 368660927740110029834300, 368701058365275374469800, 368730971461490672108900, 368740874188286394198100,
  368751204998982253812500, 368771245545493064628900, 368791120269196215092000, 368861153916419877213400, 368871135684264197818000,
  368900823594722547018200, 368941106916056952639800, 368950910555084337168500, 368961015286983765224300, 368971314860211120623400,
  368980897421484131059800, 368990702610930169184800, 369130762714119334398800, 369140670606194473803500, 369200851387312297659800,
  369241106916056952639800, 369300841240366281174000, 369350863774260468938400, 369380989050557318475200, 369390783048211736201800,
  369420897421484131059800, 369431066369546141823400, 369441204998982253812500, 369470599320580930950000, 369480635850487569233000,
  369491245545493064628900, 369511050954478159097500, 369531176230775008634300, 369560874188286394198100, 369600753913031602127500,
  369651176230775008634300, 369681314860211120623400, 369690927740110029834300, 369741314860211120623400, 369780858425391973839800,
  369810868269399255165000, 369830914126892597376400, 369840971461490672108900, 369861050954478159097500, 369880805485191039947200,
  369911153916419877213400, 369921204998982253812500, 369930848516301709416800, 369961031538876715001900, 370001245545493064628900,
  370020965209454973975400, 370090890010686915687500, 370110908815910065981600, 370131058365275374469800, 370151204998982253812500,
  370261075070683840786300, 370270885814267005784300, 370300688711042688519200, 370401314860211120623400, 370410974740472954408000,
  370451066369546141823400, 370491120269196215092000, 370501015286983765224300, 370511005755965784791800, 370571001310789527708400,
  370611314860211120623400, 370700803060829878948000, 370730919735839262480700, 370851153916419877213400, 370890771925648225179400,
  370901314860211120623400, 370941314860211120623400, 370960871778531236292000, 371010917831019765411300, 371031314860211120623400,
  371081314860211120623400, 371170790685509614659200, 371220943503004450192700, 371290921677647848190800, 371381120269196215092000,
  371590908815910065981600, 371650919735839262480700, 371681005755965784791800, 371721015286983765224300, 371921314860211120623400,
  371971066369546141823400, 372021005755965784791800, 372191314860211120623400, 372211314860211120623400, 372551153916419877213400,
  372570734950945674570800, 372660989050557318475200, 372761153916419877213400, 372910971461490672108900, 372941314860211120623400,
  373131120269196215092000, 373190819277505360497400, 373221058365275374469800, 373231058365275374469800, 373240549986232224999200,
  373250675167245599008800, 373260890010686915687500, 373270989050557318475200, 373290532056407908040450, 373351015286983765224300,
  373361176230775008634300, 373411031538876715001900, 373510868269399255165000, 373650784529720314715900, 373691314860211120623400,
  373761314860211120623400, 373771314860211120623400, 373801314860211120623400, 373851176230775008634300, 373921176230775008634300,
  373960989050557318475200, 373971245545493064628900, 374060816499548949789800, 374141120269196215092000, 374151204998982253812500,
  374280997054828085828900, 374341066369546141823400, 374381245545493064628900, 374391204998982253812500, 374451176230775008634300,
  374491135684264197818000, 374571135684264197818000, 374671066369546141823400, 374701075070683840786300, 374841245545493064628900]

def emitM27_9 : List Nat := [
  374920959325404971682000, 375040727648432173081900, 375090892909440603012800, 375181245545493064628900, 375211314860211120623400,
  375231120269196215092000, 375280811164950879260400, 375301314860211120623400, 375320971461490672108900, 375391314860211120623400,
  375501031538876715001900, 375550818575748094632700, 375611314860211120623400, 375690953768419856201000, 375731176230775008634300,
  375751120269196215092000, 375860985276524520190500, 376041204998982253812500, 376280807969790898600200, 376331084601701821218900,
  376360914126892597376400, 376381314860211120623400, 376531153916419877213400, 376571245545493064628900, 376581176230775008634300,
  376591204998982253812500, 376641314860211120623400, 376660981639760103103000, 376700684050366969670300, 376750670765557057331400,
  376831314860211120623400, 377031314860211120623400, 377071314860211120623400, 377161135684264197818000, 377231204998982253812500,
  377401314860211120623400, 377490912325042047108600, 377541314860211120623400, 377581314860211120623400, 377621058365275374469800,
  377751135684264197818000, 377800971461490672108900, 377820858425391973839800, 378041120269196215092000, 378060771052280228303900,
  378131245545493064628900, 378271245545493064628900, 378321135684264197818000, 378471176230775008634300, 378481245545493064628900,
  378531314860211120623400, 378570783048211736201800, 378771314860211120623400, 379120773250170900181500, 379271314860211120623400,
  379311245545493064628900, 379341176230775008634300, 379391314860211120623400, 379410662210725163544500, 379441095137753387001600,
  379461314860211120623400, 379501204998982253812500, 379561075070683840786300, 379690959325404971682000, 379871120269196215092000,
  379950869425481495272700, 380001204998982253812500, 380021066369546141823400, 380121314860211120623400, 380131066369546141823400,
  380141031538876715001900, 380241031538876715001900, 380251176230775008634300, 380261015286983765224300, 380310868269399255165000,
  380371314860211120623400, 380390784529720314715900, 380431120269196215092000, 380441176230775008634300, 380460989050557318475200,
  380470773250170900181500, 380481176230775008634300, 380491120269196215092000, 380500807969790898600200, 380521176230775008634300,
  380531204998982253812500, 380540747527884403474200, 380550816499548949789800, 380581204998982253812500, 380591314860211120623400,
  380611314860211120623400, 380621245545493064628900, 380631314860211120623400, 380641066369546141823400, 380650981639760103103000,
  380691037601338896645200, 380741075070683840786300, 380751066369546141823400, 380761245545493064628900, 380791204998982253812500,
  380801245545493064628900, 380810662210725163544500, 380821135684264197818000, 380830997054828085828900, 380851066369546141823400,
  380891135684264197818000, 380941095137753387001600, 381071314860211120623400, 381080892909440603012800, 381090953768419856201000,
  381151314860211120623400, 381191314860211120623400, 381201120269196215092000, 381231314860211120623400, 381250811164950879260400,
  381261176230775008634300, 381340727648432173081900, 381351314860211120623400, 381361075070683840786300, 381421135684264197818000,
  381431176230775008634300, 381450858425391973839800, 381481204998982253812500, 381491314860211120623400, 381521314860211120623400,
  381550985276524520190500, 381561176230775008634300, 381591314860211120623400, 381600818575748094632700, 381661314860211120623400,
  381671314860211120623400, 381711204998982253812500, 381741084601701821218900, 381751153916419877213400, 381770670765557057331400,
  381791314860211120623400, 381820684050366969670300, 381891314860211120623400, 381900912325042047108600, 381921314860211120623400,
  381931245545493064628900, 381961314860211120623400, 381971245545493064628900, 381991135684264197818000, 382011314860211120623400,
  382021314860211120623400, 382031204998982253812500, 382091058365275374469800, 382150771052280228303900, 382201245545493064628900,
  382241120269196215092000, 382271245545493064628900, 382290971461490672108900, 382321314860211120623400, 382360783048211736201800,
  382381245545493064628900, 382531314860211120623400, 382561176230775008634300, 382591120269196215092000, 382621066369546141823400,
  382630570904280207291500, 382710570904280207291500, 382720779674397773016800, 382751031538876715001900, 382781120269196215092000,
  382830601132367394584800, 382861204998982253812500, 382871120269196215092000, 382901075070683840786300, 382910981639760103103000,
  382921075070683840786300, 383051245545493064628900, 383070851387312297659800, 383131020416313203979400, 383161204998982253812500,
  383171176230775008634300, 383211120269196215092000, 383261314860211120623400, 383310861600261805297800, 383441176230775008634300,
  383461020416313203979400, 383481204998982253812500, 383520953768419856201000, 383571025823035331007000, 383580731965649359602700,
  383640769756365764053400, 383691135684264197818000, 383701001310789527708400, 383760779674397773016800, 383781031538876715001900,
  383791120269196215092000, 383820923657910577808700, 383830731965649359602700, 383841120269196215092000, 383851176230775008634300,
  383861075070683840786300, 383871204998982253812500, 383880981639760103103000, 383891075070683840786300, 383950815816952442749800,
  383971020416313203979400, 383981176230775008634300, 384010851387312297659800, 384021245545493064628900, 384051120269196215092000,
  384061204998982253812500, 384101314860211120623400, 384140861600261805297800, 384161135684264197818000, 384171204998982253812500,
  384201020416313203979400, 384230953768419856201000, 384251025823035331007000, 384311075070683840786300, 384461058365275374469800,
  384501058365275374469800, 384510638702934240217900, 384520858425391973839800, 384530921677647848190800, 384540978130628121976100,
  384630677699026397437800, 384681106916056952639800, 384690936441247728797200, 384700815816952442749800, 384710951101595147984800,
  384720788591192230134900, 384761314860211120623400, 384770894390949181526900, 384801050954478159097500, 384851020416313203979400,
  384931020416313203979400, 384951050954478159097500, 384980890010686915687500, 384990921677647848190800, 385041314860211120623400,
  385050953768419856201000, 385061106916056952639800, 385120858425391973839800, 385150788591192230134900, 385170732555621572321600,
  385180789632868315960500, 385200815816952442749800, 385250638702934240217900, 385340743817509383136400, 385381075070683840786300,
  385420978130628121976100, 385430929845450949617600, 385440929845450949617600, 385491314860211120623400, 385511176230775008634300,
  385521245545493064628900, 385550936441247728797200, 385680929845450949617600, 385700953768419856201000, 385770929845450949617600,
  385800951101595147984800, 385820874188286394198100, 385840874188286394198100, 385851314860211120623400, 385881176230775008634300,
  385891095137753387001600, 385900959325404971682000, 385920898971902784656300, 385930679075984469813500, 385960783048211736201800,
  385970728781588774036850, 385980853348159436497500, 386011204998982253812500, 386031095137753387001600, 386050826580018861986300,
  386071135684264197818000, 386170724870475762374240, 386191135684264197818000, 386201314860211120623400, 386221010407967348281100,
  386260925678181309560700, 386270959325404971682000, 386320748911989544661300, 386340674007332014673600, 386390953768419856201000,
  386420585354569474360400, 386461120269196215092000, 386470638125898594084300, 386511050954478159097500, 386541010407967348281100,
  386561204998982253812500, 386571015286983765224300, 386601005755965784791800, 386621001310789527708400, 386630727930519807246000,
  386690838642817640847800, 386711245545493064628900, 386780981639760103103000, 386840997054828085828900, 386860786033508051170000,
  386951010407967348281100, 387011153916419877213400, 387060900546738481470200, 387120881786877091990300, 387131245545493064628900,
  387171015286983765224300, 387241153916419877213400, 387280715215002258721400, 387380659609422417164500, 387391044055191010402500,
  387420852362929792196400, 387450758792048019070600, 387461044055191010402500, 387480758792048019070600, 387500803661432284969200,
  387540931996071471713900, 387611001310789527708400, 387711153916419877213400, 387971044055191010402500, 387991106916056952639800,
  388161106916056952639800, 388491204998982253812500, 388590808600707817926800, 388601245545493064628900, 388670902146772616114300,
  388731135684264197818000, 388761245545493064628900, 388781204998982253812500, 388860808600707817926800, 388871245545493064628900,
  388890902146772616114300, 388901135684264197818000, 388911204998982253812500, 388921245545493064628900, 388931314860211120623400,
  388990843907190989390000, 389010905425754898413400, 389020929845450949617600, 389070905425754898413400, 389111135684264197818000,
  389131245545493064628900, 389140925678181309560700, 389150997054828085828900, 389171066369546141823400, 389180635401553032973500,
  389200898971902784656300, 389221153916419877213400, 389241020416313203979400, 389281005755965784791800, 389291010407967348281100,
  389301095137753387001600, 389310965209454973975400, 389360869425481495272700, 389450910555084337168500, 389570872976150340963600,
  389711031538876715001900, 389821176230775008634300, 389890903772824703292300, 389910800693855470357500, 389951245545493064628900,
  390001204998982253812500, 390061031538876715001900, 390131245545493064628900, 390150978130628121976100, 390230752098099751559700,
  390291245545493064628900, 390300925678181309560700, 390310997054828085828900, 390331066369546141823400, 390340635401553032973500,
  390350898971902784656300, 390361153916419877213400, 390371010407967348281100, 390380978130628121976100, 390390965209454973975400,
  390411095137753387001600, 390421020416313203979400, 390441005755965784791800, 390460869425481495272700, 390490910555084337168500,
  390530959325404971682000, 390571031538876715001900, 390620849464176104871200, 390631176230775008634300, 390671245545493064628900,
  390680800693855470357500, 390690903772824703292300, 390741245545493064628900, 390800748911989544661300, 390871245545493064628900,
  391080997054828085828900, 391180748911989544661300, 391221245545493064628900, 391280997054828085828900, 391310700441647708058800,
  391340700441647708058800, 391350936441247728797200, 391541204998982253812500, 391780770186473953992400, 391920948504046507658800,
  392141314860211120623400, 392371314860211120623400, 392501084601701821218900, 392781204998982253812500, 392861084601701821218900]

def emitM27_10 : List Nat := [
  392961204998982253812500, 393141314860211120623400, 393180862681353415719300, 393191245545493064628900, 393210643807900175380600,
  393331075070683840786300, 393361075070683840786300, 393400567837797530626800, 393420978130628121976100, 393471037601338896645200,
  393781025823035331007000, 393811010407967348281100, 394091314860211120623400, 394230992972628633803300, 394251176230775008634300,
  394380981639760103103000, 394391245545493064628900, 394670951101595147984800, 394720817186836878566000, 394791176230775008634300,
  394891204998982253812500, 394921314860211120623400, 394931066369546141823400, 395011314860211120623400, 395091245545493064628900,
  395111176230775008634300, 395141025823035331007000, 395221135684264197818000, 395241204998982253812500, 395250992972628633803300,
  395301135684264197818000, 395320567837797530626800, 395361037601338896645200, 395371066369546141823400, 395401135684264197818000,
  395451025823035331007000, 395501010407967348281100, 395531314860211120623400, 395561245545493064628900, 395581314860211120623400,
  395621135684264197818000, 395631176230775008634300, 395641176230775008634300, 395670992972628633803300, 395681245545493064628900,
  395690981639760103103000, 395781176230775008634300, 395801204998982253812500, 395820951101595147984800, 395861314860211120623400,
  395890992972628633803300, 395911204998982253812500, 395920879189328451664300, 396360692206544191876900, 396400513824252228645050,
  396541120269196215092000, 396630981639760103103000, 397111204998982253812500, 397170929845450949617600, 397271245545493064628900,
  397291001310789527708400, 397451314860211120623400, 397461075070683840786300, 397481314860211120623400, 397521204998982253812500,
  397590740559892339675200, 397640968286620840650700, 397700951101595147984800, 397910560798058254908200, 398251031538876715001900,
  398541005755965784791800, 398811120269196215092000, 399120919735839262480700, 399951314860211120623400, 400230951101595147984800,
  400600951101595147984800, 400650560798058254908200, 400771031538876715001900, 400921005755965784791800, 401001120269196215092000,
  401200919735839262480700, 401511314860211120623400, 401580951101595147984800, 401650989050557318475200, 401790644664174520369400,
  401800847577327674432900, 402191204998982253812500, 402271075070683840786300, 402301314860211120623400, 402510516823634609498850,
  402551153916419877213400, 402731314860211120623400, 402851066369546141823400, 402881106916056952639800, 403000828878970684456300,
  403670989050557318475200, 403720789632868315960500, 404071075070683840786300, 404341106916056952639800, 404410945972265709229800,
  404421314860211120623400, 404741106916056952639800, 404751245545493064628900, 404771314860211120623400, 404781075070683840786300,
  404790989050557318475200, 404811010407967348281100, 404830847577327674432900, 404851075070683840786300, 404901075070683840786300,
  404951314860211120623400, 404991204998982253812500, 405091153916419877213400, 405101075070683840786300, 405110516823634609498850,
  405141314860211120623400, 405151314860211120623400, 405161106916056952639800, 405171066369546141823400, 405270828878970684456300,
  405480789632868315960500, 405501106916056952639800, 405551106916056952639800, 405571314860211120623400, 405600945972265709229800,
  405631245545493064628900, 405730945972265709229800, 405750722434631379170300, 405841314860211120623400, 405940968286620840650700,
  405950997054828085828900, 405990546519843015240800, 406070881786877091990300, 406130774143033974611600, 406140774143033974611600,
  406350783539613216444700, 406361176230775008634300, 406430808600707817926800, 406440808600707817926800, 406540826580018861986300,
  406570869425481495272700, 406600962224158659007300, 406640789632868315960500, 406670722167608523582300, 406700874188286394198100,
  406801153916419877213400, 407180818575748094632700, 407200875415295653379600, 407230971461490672108900, 407631204998982253812500,
  407780789632868315960500, 407790985276524520190500, 407840789632868315960500, 408010974740472954408000, 408360974740472954408000,
  408450654195192500801900, 408480837791748674057000, 408521120269196215092000, 408570654195192500801900, 408581120269196215092000,
  408600912325042047108600, 408630912325042047108600]

def emitM28_0 : List Nat := [
  199680574567056735845400, 199750845372076846066500, 199770753743003658650900, 199900550928178929422300, 199960845372076846066500,
  200130694964337168439000, 200290804825566035249900, 200570914686794902061000, 200610845372076846066500, 200650845372076846066500,
  200700804825566035249900, 201100914686794902061000, 201130650781061940535000, 201220776057358790071800, 201260776057358790071800,
  201400845372076846066500, 201850845372076846066500, 201950914686794902061000, 201970776057358790071800, 202100914686794902061000,
  202230804825566035249900, 202550735510847979255460, 202710545798849490667300, 203080914686794902061000, 203160592799212415240800,
  203390914686794902061000, 203550914686794902061000, 204260776057358790071800, 205530735510847979255460, 207540914686794902061000,
  208030804825566035249900, 208060720095779996529600, 208090521504231629628400, 208110562050742440444750, 208400577957211903413500,
  208440706742640734077400, 208520720095779996529600, 208540643881774791839940, 208960753743003658650900, 209080845372076846066500,
  209140497248067912497200, 209180804825566035249900, 209400914686794902061000, 210170776057358790071800, 210330694964337168439000,
  210630776057358790071800, 210730845372076846066500, 211330845372076846066500, 211470666196129923260900, 211530914686794902061000,
  212090914686794902061000, 212130706742640734077400, 212700845372076846066500, 212710914686794902061000, 213150914686794902061000,
  213260637427922678082800, 213310776057358790071800, 213400631365460496439300, 213440914686794902061000, 213550914686794902061000,
  214520674897267622223800, 214570753743003658650900, 214600845372076846066500, 214830694964337168439000, 214910706742640734077400,
  215210534020545925028900, 215310706742640734077400, 215510735510847979255460, 216440776057358790071800, 216470914686794902061000,
  217460753743003658650900, 218550735510847979255460, 219870735510847979255460, 222690495721320699418400, 222780804825566035249900,
  222830495721320699418400, 222910804825566035249900, 224780914686794902061000, 227630914686794902061000, 228230553595003637638500,
  228250498798486566093800, 228620804825566035249900, 229150620242896985416900, 230130448342885490854200, 230710914686794902061000,
  233760588877141099912700, 233890666196129923260900, 233950914686794902061000, 233980845372076846066500, 234160845372076846066500,
  234310845372076846066500, 234320804825566035249900, 234330845372076846066500, 234390845372076846066500, 234470443733774770827500,
  234500914686794902061000, 234530694964337168439000, 234660804825566035249900, 234780684428285602656300, 234930543329588231630100,
  235000804825566035249900, 235420694964337168439000, 235670643881774791839940, 235720441948013030826800, 236210293626787199595630,
  236370720095779996529600, 236650534020545925028900, 236820845372076846066500, 236960845372076846066500, 237210914686794902061000,
  237290753743003658650900, 237360804825566035249900, 240390706742640734077400, 241790674897267622223800, 241910753743003658650900,
  242120914686794902061000, 242370914686794902061000, 242910753743003658650900, 243100804825566035249900, 243140500373322262907650,
  243440776057358790071800, 243750804825566035249900, 243780804825566035249900, 243800596881411867266400, 245030631365460496439300,
  245090914686794902061000, 245150706742640734077400, 245250914686794902061000, 245350585103108301628000, 245440845372076846066500,
  245760845372076846066500, 246050914686794902061000, 246460914686794902061000, 246580914686794902061000, 246980615113567546661900,
  248400776057358790071800, 248870615113567546661900, 250100804825566035249900, 250330914686794902061000, 250790845372076846066500,
  251040387386839045686230, 251650914686794902061000, 252150776057358790071800, 253910804825566035249900, 259190845372076846066500,
  259450845372076846066500, 259550914686794902061000, 259580620242896985416900, 259910432658638341557200, 260200804825566035249900,
  260310431855421171830840, 260320441066950062611300, 260410592799212415240800, 260440914686794902061000, 260800914686794902061000,
  260850735510847979255460, 260930562050742440444750, 261020845372076846066500, 261260845372076846066500, 261310845372076846066500,
  261430735510847979255460, 261490914686794902061000, 261590735510847979255460, 261740914686794902061000, 261780845372076846066500,
  261950498798486566093800, 262340454169776303251800, 263130498798486566093800, 263290914686794902061000, 263600804825566035249900,
  263770407796374680037750, 263950845372076846066500, 263970684428285602656300, 264080543329588231630100, 264100735510847979255460,
  264120637427922678082800, 264200804825566035249900, 264810845372076846066500, 264950694964337168439000, 265190914686794902061000,
  266090666196129923260900, 266110845372076846066500, 266410914686794902061000, 266900753743003658650900, 267250631365460496439300,
  268510596881411867266400, 269700776057358790071800, 270540536267831510234850, 271920804825566035249900, 271930914686794902061000,
  272110631365460496439300, 272160914686794902061000, 274270914686794902061000, 274910553595003637638500, 274930543329588231630100,
  275890519562423043918200, 276650914686794902061000, 277040581466343884540600, 277210694964337168439000, 277410776057358790071800,
  277620914686794902061000, 278180914686794902061000, 278350615113567546661900, 278910753743003658650900, 279730914686794902061000,
  279820581466343884540600, 280230508642493847419000, 281130620242896985416900, 281490674897267622223800, 281540914686794902061000,
  281650914686794902061000, 281700674897267622223800, 283040845372076846066500, 283960914686794902061000, 284360914686794902061000,
  284500694964337168439000, 286390581466343884540600, 288510914686794902061000, 289490914686794902061000, 289610914686794902061000,
  290290914686794902061000, 290810525504765090998200, 292460441948013030826800, 294200914686794902061000, 295440914686794902061000,
  295720735510847979255460, 295770637427922678082800, 295790914686794902061000, 299920694964337168439000, 299950914686794902061000,
  303320753743003658650900, 304100914686794902061000, 304270914686794902061000, 304560776057358790071800, 304650720095779996529600,
  310620845372076846066500, 311030610234551129718650, 311080610234551129718650, 311190706742640734077400, 311680735510847979255460,
  311770845372076846066500, 311790436774445590907940, 312580706742640734077400, 312920565036038755412900, 313540804825566035249900,
  314350666196129923260900, 315690914686794902061000, 316890914686794902061000, 320200914686794902061000, 320570845372076846066500,
  320680658191859155907300, 321470753743003658650900, 321600658191859155907300, 321860914686794902061000, 321910845372076846066500,
  323800804825566035249900, 324310914686794902061000, 324520658191859155907300, 324610845372076846066500, 324630753743003658650900,
  324870804825566035249900, 324940914686794902061000, 325010845372076846066500, 325110658191859155907300, 325990914686794902061000,
  326450914686794902061000, 326540776057358790071800, 326900605582549566229300, 327680804825566035249900, 327800914686794902061000,
  328620845372076846066500, 328950620242896985416900, 329030735510847979255460, 329460914686794902061000, 329880706742640734077400,
  332580075932796583124260, 332680845372076846066500, 332880720095779996529600, 333910776057358790071800, 334020776057358790071800,
  334640804825566035249900, 334950914686794902061000, 335210684428285602656300, 336350536267831510234850, 336430845372076846066500,
  337140804825566035249900, 337750637427922678082800, 338360845372076846066500, 340300804825566035249900, 340930845372076846066500,
  342690776057358790071800, 343820776057358790071800, 348920914686794902061000, 349070914686794902061000, 349090497248067912497200,
  350290694964337168439000, 352990845372076846066500, 353360776057358790071800, 354240914686794902061000, 357450776057358790071800,
  358950658191859155907300, 359120845372076846066500, 360110720095779996529600, 360200845372076846066500, 361430720095779996529600,
  361490845372076846066500, 362150914686794902061000, 367980666196129923260900, 368170631365460496439300, 368270845372076846066500,
  368480804825566035249900, 368660914686794902061000, 369140845372076846066500, 369300914686794902061000, 369470501973356397551700,
  369480666196129923260900, 369690914686794902061000, 371290845372076846066500, 373250776057358790071800, 373290776057358790071800,
  376700735510847979255460, 379120720095779996529600, 379410776057358790071800, 379560776057358790071800, 380470720095779996529600,
  380810776057358790071800, 381360776057358790071800, 381820735510847979255460, 382630456190047035003800, 382710456190047035003800,
  383950845372076846066500, 384510517657603546848750, 384540914686794902061000, 385170845372076846066500, 385250517657603546848750,
  385340914686794902061000, 385420914686794902061000, 385960914686794902061000, 386170674897267622223800, 386340845372076846066500,
  386420650781061940535000, 386630720095779996529600, 387380776057358790071800, 387450914686794902061000, 387480914686794902061000,
  387500914686794902061000, 387970735510847979255460, 388760581466343884540600, 388920581466343884540600, 389180804825566035249900,
  390230914686794902061000, 390340804825566035249900, 390800914686794902061000, 391180914686794902061000, 393180914686794902061000,
  393330914686794902061000, 393400581466343884540600, 395320581466343884540600, 396400306464903864416300, 397450914686794902061000,
  401800804825566035249900, 403000753743003658650900, 403720914686794902061000, 404830804825566035249900, 405270753743003658650900,
  405480914686794902061000, 405990804825566035249900, 406670914686794902061000, 407180735510847979255460, 407780441948013030826800,
  407840441948013030826800]

def emitM29_0 : List Nat := [
  199680693416534737564000, 199690767610269210501800, 199750789924624341922800, 199780818692831587100800, 199810888007549643095300,
  199900928554060453911800, 199920997868778509906400, 199960619449815118080200, 199970997868778509906400, 200160997868778509906400,
  200290577399516570809700, 200410997868778509906400, 200440634110162537267700, 200520714547444104284700, 200650997868778509906400,
  200800749378113531106300, 201220506603289936301150, 201260506603289936301150, 201540888007549643095300, 201600471082962603573500,
  201610928554060453911800, 201950657749040343690800, 202340489728342011460000, 202370803277763604375000, 202620645232726048290100,
  202710496140794828413900, 203040928554060453911800, 203150997868778509906400, 203290818692831587100800, 203810720609906285928200,
  205230645232726048290100, 205470758079251230069200, 206250997868778509906400, 206940997868778509906400, 208090557196853783481050,
  208110360707593786720660, 208390661139195511258900, 208450720609906285928200, 208480500887448552306200, 208570693416534737564000,
  208690661139195511258900, 208720997868778509906400, 209610767610269210501800, 209750859239342397917300, 209770859239342397917300,
  209990680063395475111800, 210150568822834395067200, 210170928554060453911800, 210290888007549643095300, 210330436191668743249200,
  210350888007549643095300, 210630928554060453911800, 211470888007549643095300, 211520617202529532874300, 211620727063758399685300,
  211710586781392092575200, 212020562197895840947100, 212130859239342397917300, 212140586781392092575200, 212710668285091909473400,
  213130547887811476879800, 213190888007549643095300, 213260836924987266496200, 213350708831602720289800, 213380836924987266496200,
  213400508833865687730900, 213450542481089349852200, 213460703424880593262300, 213800733963045548380500, 213820668285091909473400,
  214760488493758429230100, 214870741373842763752700, 214880928554060453911800, 214900859239342397917300, 215080684319356916991300,
  215130631512613896941700, 215180888007549643095300, 215200997868778509906400, 215250733963045548380500, 215550859239342397917300,
  215560859239342397917300, 215700733963045548380500, 217040502286072749780200, 217330606666477967091700, 217760648218022363258300,
  218880888007549643095300, 219320714547444104284700, 222400617202529532874300, 222690997868778509906400, 222700624101816681569500,
  222830997868778509906400, 222940624101816681569500, 223070997868778509906400, 223500803277763604375000, 223740581980470173939150,
  224670619449815118080200, 224780502992789472089500, 225220615004638860996800, 225750997868778509906400, 226120551277966644447900,
  226220621748766940550100, 227630420724666196904700, 227990657749040343690800, 228100409815479869836300, 228230645232726048290100,
  228260520800316063339900, 228270430536451792757100, 228550684319356916991300, 228620888007549643095300, 228650621748766940550100,
  228850555984717730246600, 228870555984717730246600, 229580888007549643095300, 229820617202529532874300, 229870778146320776284400,
  230410708831602720289800, 230640778146320776284400, 233760836924987266496200, 233800928554060453911800, 233850888007549643095300,
  233880803277763604375000, 233890562197895840947100, 233910803277763604375000, 233950859239342397917300, 234030888007549643095300,
  234250720609906285928200, 234330733963045548380500, 234590997868778509906400, 234660997868778509906400, 234670720609906285928200,
  234700720609906285928200, 234780928554060453911800, 234860708831602720289800, 234940789924624341922800, 235000997868778509906400,
  235270720609906285928200, 235670836924987266496200, 235720209599557881003750, 235880997868778509906400, 235910997868778509906400,
  236120462682965162299600, 236270859239342397917300, 236650675981196023086300, 237070997868778509906400, 237130997868778509906400,
  237980997868778509906400, 240520431572730496311800, 240670438770080458820600, 240760651295188229933700, 240850580430051520342600,
  241780836924987266496200, 241790818692831587100800, 241800602744406651763600, 241850836924987266496200, 241890928554060453911800,
  241960758079251230069200, 242110668285091909473400, 242130634110162537267700, 242220997868778509906400, 242230803277763604375000,
  242350668285091909473400, 242470928554060453911800, 242650621748766940550100, 242780888007549643095300, 242900803277763604375000,
  243200888007549643095300, 243430634110162537267700, 244030621748766940550100, 244430758079251230069200, 244440688764533174074800,
  244600888007549643095300, 244660767610269210501800, 244710608686748698843700, 245030422611514627343000, 245050758079251230069200,
  245090928554060453911800, 245760818692831587100800, 246050997868778509906400, 246810489728342011460000, 248590928554060453911800,
  250100997868778509906400, 250790818692831587100800, 250960634110162537267700, 251040767610269210501800, 251600693416534737564000,
  251650928554060453911800, 251660727063758399685300, 251760528733990286991950, 251960720609906285928200, 252890316964847905608370,
  254630789924624341922800, 255520714547444104284700, 255620720609906285928200, 257050789924624341922800, 257460818692831587100800,
  259550789924624341922800, 259910456704173324402300, 260000997868778509906400, 260310258850635687263340, 260320626511571839475500,
  260410708831602720289800, 260450888007549643095300, 260850648218022363258300, 261140758079251230069200, 261260693416534737564000,
  261310528733990286991950, 261570928554060453911800, 261740997868778509906400, 262220536356726825780400, 262230997868778509906400,
  263640651295188229933700, 263910531524869098699600, 263950836924987266496200, 264080767610269210501800, 264100758079251230069200,
  264110595333609436391400, 264120803277763604375000, 264490767610269210501800, 264600514240587814758500, 264800997868778509906400,
  264810619449815118080200, 264940928554060453911800, 265190586781392092575200, 265240803277763604375000, 265760997868778509906400,
  265970720609906285928200, 266410928554060453911800, 266810684319356916991300, 266840472641435705243300, 267050997868778509906400,
  267570741373842763752700, 268620778146320776284400, 271930928554060453911800, 274630997868778509906400, 274940553603652860874700,
  275110668285091909473400, 276040580430051520342600, 277210741373842763752700, 277430928554060453911800, 277790803277763604375000,
  278010758079251230069200, 278270997868778509906400, 278350668285091909473400, 278610727063758399685300, 278740554787098625575000,
  278880628980833098512700, 279310463158025438159450, 280230749378113531106300, 280370597135459986659300, 281000859239342397917300,
  281650997868778509906400, 281930997868778509906400, 282870591824477455264400, 283730888007549643095300, 284500741373842763752700,
  285040997868778509906400, 285950693416534737564000, 286290591824477455264400, 287890928554060453911800, 288720645232726048290100,
  288790634110162537267700, 289090859239342397917300, 291050859239342397917300, 292260693416534737564000, 292330928554060453911800,
  292460209599557881003750, 293050383450215097341740, 295770803277763604375000, 295950789924624341922800, 296320928554060453911800,
  296420836924987266496200, 296770888007549643095300, 297470928554060453911800, 297480997868778509906400, 297850997868778509906400,
  297900888007549643095300, 297910510349046189791200, 298020789924624341922800, 299160859239342397917300, 299260491609275207209600,
  299950928554060453911800, 300000997868778509906400, 300030888007549643095300, 300530928554060453911800, 300700621748766940550100,
  303310803277763604375000, 303430631512613896941700, 303820642333972360965000, 304390703424880593262300, 304950997868778509906400,
  305910803277763604375000, 310660997868778509906400, 310700888007549643095300, 311190634110162537267700, 311850523375565673581300,
  313020733963045548380500, 313540803277763604375000, 313890888007549643095300, 314010888007549643095300, 315320997868778509906400,
  315720859239342397917300, 315740997868778509906400, 318590479130197925830800, 320020928554060453911800, 320040836924987266496200,
  320130573019254304970450, 320160928554060453911800, 320320749378113531106300, 320340698295551154507250, 321140997868778509906400,
  321730431920556933944200, 322360997868778509906400, 324190928554060453911800, 324220836924987266496200, 324350573019254304970450,
  324450928554060453911800, 325000431920556933944200, 325170997868778509906400, 325970398472635779249400, 325990435828691938191300,
  326450435828691938191300, 326810997868778509906400, 327520661139195511258900, 327710928554060453911800, 328220586781392092575200,
  328340758079251230069200, 328540997868778509906400, 328860758079251230069200, 328990997868778509906400, 329010997868778509906400,
  329430778146320776284400, 329460997868778509906400, 329880859239342397917300, 329930997868778509906400, 330980997868778509906400,
  331360818692831587100800, 332400997868778509906400, 332680928554060453911800, 332930758079251230069200, 333910888007549643095300,
  334330888007549643095300, 334570888007549643095300, 334870661139195511258900, 334950758079251230069200, 335210818692831587100800,
  335380749378113531106300, 335410733963045548380500, 335760602744406651763600, 335860693416534737564000, 336730928554060453911800,
  336740758079251230069200, 336780693416534737564000, 337070575918007992295700, 337130540397680659568000, 337750836924987266496200,
  337780502286072749780200, 338020540397680659568000, 338210928554060453911800, 338320600839587154694100, 338360789924624341922800,
  339220574458128050180400, 339450684319356916991300, 342170600839587154694100, 342550803277763604375000, 343110661139195511258900,
  343490500887448552306200, 343670928554060453911800, 343820997868778509906400, 349050688764533174074800, 349550888007549643095300,
  350410283191560564642630, 351400720609906285928200, 351990478573093420885250, 352580626511571839475500, 352730626511571839475500,
  354330803277763604375000, 354490997868778509906400, 355820532472743494154000, 356130733963045548380500, 357990803277763604375000,
  358340532472743494154000, 358740733963045548380500, 359200997868778509906400, 359970489109144986667900, 360200997868778509906400,
  360230749378113531106300, 360270733963045548380500, 360510708831602720289800, 360840714547444104284700, 360930621748766940550100,
  361060997868778509906400, 361250489109144986667900, 361490997868778509906400, 361530733963045548380500, 361820714547444104284700,
  361870621748766940550100, 361900997868778509906400, 361990997868778509906400, 362030688764533174074800, 363350720609906285928200]

def emitM29_1 : List Nat := [
  367630758079251230069200, 367980526018891380396900, 368080617202529532874300, 368300708831602720289800, 368420522509759399269850,
  368550803277763604375000, 368740778146320776284400, 368990708831602720289800, 369480526018891380396900, 369560778146320776284400,
  369930617202529532874300, 370270664648327492386000, 370300675981196023086300, 370700789924624341922800, 370890767610269210501800,
  371170928554060453911800, 371290997868778509906400, 373240283191560564642630, 373290585155340005397200, 376560997868778509906400,
  376790928554060453911800, 381690928554060453911800, 381800997868778509906400, 382720703424880593262300, 382830888007549643095300,
  383760703424880593262300, 384630557196853783481050, 385170741373842763752700, 385340859239342397917300, 385970675981196023086300,
  386470508833865687730900, 386690859239342397917300, 387280928554060453911800, 387450741373842763752700, 387480741373842763752700,
  387540720609906285928200, 388590600839587154694100, 388860600839587154694100, 389130608686748698843700, 390230997868778509906400,
  390290608686748698843700, 393400380074367104846300, 395320380074367104846300, 396400720609906285928200, 397910597135459986659300,
  400650597135459986659300, 405990577399516570809700, 406640397727290713791340, 407780859239342397917300, 407840859239342397917300,
  408480997868778509906400]

def emitM30_0 : List Nat := [
  199680851627473697917400, 199690618939695141608400, 199710798275770201111300, 199750877700099944242700, 199770566301298873424100,
  199780843749385912606000, 199790766430397089257800, 199810669490341370447500, 199901124085424003259500, 199920803202875101789500,
  199940882048611138216600, 199960476812162140094800, 199971124085424003259500, 200051054770705947265000, 200111152853631248437500,
  200130527791777653915200, 200160783965685837043900, 200201068123845209717300, 200250684025121978577800, 200261083538913192443000,
  200270689704881817891100, 200290865685668760036400, 200351032456350815844000, 200371262714860115248600, 200410681900611117204200,
  200431193400142059254000, 200440807327170955194400, 200480710169566202070200, 200521152853631248437500, 200561262714860115248600,
  200610973677684325632000, 200630632819935429654300, 200650689380732425474000, 200701152853631248437500, 200800793580071892334200,
  201051193400142059254000, 201071022925332835411500, 201080879850720466339100, 201130628855452294930300, 201160837865335910312600,
  201170916141269835275900, 201201124085424003259500, 201211124085424003259500, 201220510096968780634000, 201260510096968780634000,
  201320913064103968600600, 201330759019599873885650, 201351262714860115248600, 201360973677684325632000, 201400513717770231768500,
  201410910078807653632400, 201421054770705947265000, 201540476119318721898400, 201600647654583270620600, 201610818449734466217000,
  201630922595121949033000, 201661152853631248437500, 201770610947732824021100, 201790953610614779417000, 201800963141632759849400,
  201820848401387476095300, 201850820830799335588800, 201950830966048761617600, 201960922595121949033000, 202021262714860115248600,
  202031068123845209717300, 202040830966048761617600, 202211193400142059254000, 202340685882760535871300, 202371068123845209717300,
  202391101771068871838500, 202400636565691683144300, 202411022925332835411500, 202470904362966269637500, 202491032456350815844000,
  202500765733530157648500, 202620545933941683604200, 202710565923939935060200, 202781083538913192443000, 202940933131173514815700,
  203040998809127153722700, 203070910078807653632400, 203080886594848545892400, 203090949165438522333600, 203130949165438522333600,
  203150772187382271405600, 203160858409733331793500, 203240963141632759849400, 203290793580071892334200, 203321068123845209717300,
  203580599778534771503700, 203750944909477080454000, 203810853280403893038500, 203921193400142059254000, 203990963141632759849400,
  204150973677684325632000, 204200628326816702615400, 204331101771068871838500, 204450779883486385018450, 204491262714860115248600,
  204621014224195136448600, 204890953610614779417000, 204970830966048761617600, 205230545933941683604200, 205651083538913192443000,
  206160985455987891270400, 206430819633180230917300, 206891193400142059254000, 206931152853631248437500, 207230985455987891270400,
  207361262714860115248600, 207990772187382271405600, 208030830966048761617600, 208051032456350815844000, 208090910078807653632400,
  208110478369219677637100, 208180772187382271405600, 208390551237915278602200, 208401152853631248437500, 208430888947898286911800,
  208440676351742555438800, 208450754574423616802300, 208480522530702240865600, 208490460885246263696500, 208510677207667895005800,
  208520601108341601966900, 208530828334317929880200, 208540674104456970233000, 208551193400142059254000, 208561006219924369095000,
  208570672178675309791500, 208640953610614779417000, 208690551237915278602200, 208720728961052145116700, 208910879850720466339100,
  208920819633180230917300, 208961193400142059254000, 209081054770705947265000, 209120710969570468777800, 209141152853631248437500,
  209180979393525709626900, 209191101771068871838500, 209280888947898286911800, 209370797318825099496200, 209400840764089597637800,
  209600801202808431122500, 209641032456350815844000, 209750882048611138216600, 209760766430397089257800, 209770882048611138216600,
  209921124085424003259500, 209991022925332835411500, 210150661343344510968400, 210161262714860115248600, 210170913064103968600600,
  210180929494409097728200, 210290645128133104672400, 210330373001325885916970, 210350645128133104672400, 210481022925332835411500,
  210490944909477080454000, 210630913064103968600600, 210690884295896723422500, 210700944909477080454000, 210830929494409097728200,
  210950863816455458821200, 211270863816455458821200, 211291262714860115248600, 211470824512196647860500, 211490991909840005027600,
  211510910078807653632400, 211520456692436071152800, 211600940827277628428500, 211611083538913192443000, 211620886594848545892400,
  211710842245598176152000, 211831152853631248437500, 211871006219924369095000, 212020559540734238935760, 212050940827277628428500,
  212130854961115724676500, 212140842245598176152000, 212181152853631248437500, 212201101771068871838500, 212400991909840005027600,
  212431042992402381626600, 212481042992402381626600, 212531152853631248437500, 212700694017324481266600, 212710471399341522441800,
  212950856670559060606600, 213050953610614779417000, 213131042992402381626600, 213151262714860115248600, 213220564893485852178800,
  213260468834635299800500, 213290708588505599405900, 213310949165438522333600, 213330916141269835275900, 213350395757772931536560,
  213380641454250540096700, 213400998809127153722700, 213440886594848545892400, 213450699593681933112000, 213460848401387476095300,
  213501022925332835411500, 213511262714860115248600, 213550818449734466217000, 213611124085424003259500, 213641262714860115248600,
  213671022925332835411500, 213711262714860115248600, 213750910078807653632400, 213780998809127153722700, 213820634488185425647900,
  214000929494409097728200, 214051068123845209717300, 214070642461308396456300, 214101124085424003259500, 214390904362966269637500,
  214420929494409097728200, 214430929494409097728200, 214500664826283625136400, 214510979393525709626900, 214520746809330193795700,
  214570810536002410344600, 214621262714860115248600, 214651193400142059254000, 214750628855452294930300, 214760537509464929967200,
  214770797318825099496200, 214821262714860115248600, 214840949165438522333600, 214870848401387476095300, 214880596019180872327950,
  214900765041485873191100, 214910907180053966307100, 214941042992402381626600, 214960985455987891270400, 214991262714860115248600,
  215080765041485873191100, 215120738012452899200000, 215130600043085190346100, 215160801202808431122500, 215170845276133125684800,
  215181006219924369095000, 215201083538913192443000, 215251083538913192443000, 215310843749385912606000, 215341068123845209717300,
  215660715068504922097500, 215701083538913192443000, 215921262714860115248600, 216081083538913192443000, 216191152853631248437500,
  216281032456350815844000, 216290789976078244014500, 216440443596259650969700, 216880979393525709626900, 216970953610614779417000,
  217030856670559060606600, 217040501778206319827400, 217291262714860115248600, 217330649158371007074650, 217760904362966269637500,
  218300860179691041733600, 218880675785168801871100, 218920836446872411117000, 218950788221647278923600, 219160904362966269637500,
  219321152853631248437500, 219340916141269835275900, 220250811628909463563600, 220300888947898286911800, 220431262714860115248600,
  220680884295896723422500, 221201193400142059254000, 221340657505943222806900, 221961054770705947265000, 222181262714860115248600,
  222350822042935388823200, 222380728481434918767500, 222400898956244142610000, 222530667131123168765500, 222601124085424003259500,
  222661014224195136448600, 222690568983451992880400, 222700785646397668682100, 222830568983451992880400, 222851124085424003259500,
  222900667131123168765500, 222940785646397668682100, 223030634488185425647900, 223070925985277116601100, 223170916141269835275900,
  223200395671943383739000, 223230562135958189898300, 223300933131173514815700, 223311068123845209717300, 223361101771068871838500,
  223380882048611138216600, 223460875594759024459500, 223531262714860115248600, 223620913064103968600600, 223631006219924369095000,
  223641124085424003259500, 223650910078807653632400, 223661262714860115248600, 223690814981178667428000, 223720991909840005027600,
  223740653810372570564000, 223780882048611138216600, 223951022925332835411500, 224110901623068850826000, 224181083538913192443000,
  224350835048248213643000, 224381262714860115248600, 224661193400142059254000, 224670775195127795133400, 224780561053891725826700,
  224840674661561475178600, 224960910078807653632400, 225191068123845209717300, 225210882048611138216600, 225220617195003781236400,
  225300991909840005027600, 225330913064103968600600, 225341083538913192443000, 225610863816455458821200, 225700817280130489897900,
  225751101771068871838500, 225760891357653444817700, 225800933131173514815700, 225811193400142059254000, 226120642866988466017700,
  226151006219924369095000, 226160680706567080012400, 226220562863895890188500, 226261262714860115248600, 226610968270962198604600,
  226960919316139666733900, 227181262714860115248600, 227210882048611138216600, 227271006219924369095000, 227441083538913192443000,
  227541124085424003259500, 227561083538913192443000, 227610910078807653632400, 227630594003999328597100, 227660712181706522012300,
  227670712181706522012300, 227680884295896723422500, 227741083538913192443000, 227781083538913192443000, 227810963141632759849400,
  227990741766244831106500, 228050837865335910312600, 228100573653948100531900, 228181152853631248437500, 228211032456350815844000,
  228230369348442245155000, 228250718041122948617500, 228260692336612649628400, 228270799241961292285000, 228300745666460611433400,
  228360690356349920010450, 228390720661360188020000, 228551101771068871838500, 228560893826914703854800, 228651262714860115248600,
  228680806280040968465000, 228850837865335910312600, 228870837865335910312600, 228990985455987891270400, 229000958262616342906300,
  229820754574423616802300, 229870837865335910312600, 229930886594848545892400, 230020968270962198604600, 230131152853631248437500,
  230410635238657991054700, 230440953610614779417000, 230640985455987891270400, 230681193400142059254000, 230770925985277116601100,
  231050953610614779417000, 232730783135805555574500, 233760693678914682842500, 233801124085424003259500, 233830979393525709626900,
  233850793580071892334200, 233861262714860115248600, 233880810536002410344600, 233891262714860115248600, 233911042992402381626600,
  233951124085424003259500, 233961054770705947265000, 233980991909840005027600, 234030793580071892334200, 234160991909840005027600]

def emitM30_1 : List Nat := [
  234250539441546497487100, 234311054770705947265000, 234321124085424003259500, 234330488909630346317000, 234351083538913192443000,
  234390933131173514815700, 234471101771068871838500, 234480794501737402826600, 234500668697734843205450, 234511152853631248437500,
  234520807327170955194400, 234530818449734466217000, 234570953610614779417000, 234581152853631248437500, 234670759671067976005000,
  234700759671067976005000, 234721022925332835411500, 234780529477939522342300, 234810985455987891270400, 234860856670559060606600,
  234871014224195136448600, 234940803202875101789500, 235000595132537951763750, 235190810536002410344600, 235270539441546497487100,
  235280723352105480012400, 235290953610614779417000, 235420818449734466217000, 235461152853631248437500, 235510963141632759849400,
  235530647868030523483900, 235581262714860115248600, 235591262714860115248600, 235671068123845209717300, 235691032456350815844000,
  235720359318747651462800, 235731262714860115248600, 235741193400142059254000, 235780991909840005027600, 235881262714860115248600,
  235911101771068871838500, 236101262714860115248600, 236120422873894572621540, 236141006219924369095000, 236161193400142059254000,
  236210979393525709626900, 236270963141632759849400, 236310916141269835275900, 236370985455987891270400, 236460791761839984015100,
  236481124085424003259500, 236600791761839984015100, 236630837865335910312600, 236650438729119013388500, 236790949165438522333600,
  237000875594759024459500, 237030907180053966307100, 237070702872664215411100, 237130728961052145116700, 237210839304209655522500,
  237250769267466802179400, 237291193400142059254000, 237310851627473697917400, 237361022925332835411500, 237620916141269835275900,
  237691032456350815844000, 237770830966048761617600, 237841193400142059254000, 237860805243762264910300, 237920736965322912470400,
  237980702872664215411100, 238031124085424003259500, 238050830966048761617600, 238110904362966269637500, 238210904362966269637500,
  238220953610614779417000, 238301262714860115248600, 238310907180053966307100, 238330610947732824021100, 238990991909840005027600,
  239161054770705947265000, 239911124085424003259500, 239940769267466802179400, 239960949165438522333600, 240290543346278275737400,
  240300408000833336829600, 240341083538913192443000, 240370919316139666733900, 240380875594759024459500, 240430979393525709626900,
  240520557615915408444100, 240551262714860115248600, 240660663318717384591700, 240670533685571870588900, 240720875594759024459500,
  240760618142878176690800, 240850882048611138216600, 240930653583871907478700, 241070875594759024459500, 241091014224195136448600,
  241101101771068871838500, 241201124085424003259500, 241251262714860115248600, 241401193400142059254000, 241711101771068871838500,
  241780633929004099070200, 241790442603695670972700, 241800925985277116601100, 241850633929004099070200, 241900801202808431122500,
  241910737487517310585600, 241960779883486385018450, 241980645544800374157000, 242080979393525709626900, 242110703989994275223600,
  242121262714860115248600, 242130762320229520702700, 242150803202875101789500, 242171083538913192443000, 242200760986876433756100,
  242221006219924369095000, 242300528826046731360700, 242310979393525709626900, 242350703989994275223600, 242370907180053966307100,
  242470801202808431122500, 242480759671067976005000, 242540898956244142610000, 242581124085424003259500, 242651054770705947265000,
  242751262714860115248600, 242781262714860115248600, 242871083538913192443000, 242880998809127153722700, 242910737487517310585600,
  243000979393525709626900, 243101042992402381626600, 243110979393525709626900, 243140636756713708756300, 243200766430397089257800,
  243241193400142059254000, 243311124085424003259500, 243431022925332835411500, 243521068123845209717300, 243571124085424003259500,
  243731068123845209717300, 243751083538913192443000, 243781083538913192443000, 243961124085424003259500, 244020998809127153722700,
  244030817280130489897900, 244130779086669420100800, 244180871512559572434000, 244210861981541592001400, 244220861981541592001400,
  244251083538913192443000, 244331068123845209717300, 244411152853631248437500, 244430771449371541643400, 244440681900611117204200,
  244491068123845209717300, 244590621205164198089000, 244601006219924369095000, 244641262714860115248600, 244660985455987891270400,
  244710596146488337007700, 244901152853631248437500, 244941152853631248437500, 245011068123845209717300, 245030541117359850101900,
  245050771449371541643400, 245090663818718426262200, 245150851627473697917400, 245170910078807653632400, 245350832308350794831700,
  245441068123845209717300, 245650839304209655522500, 245711124085424003259500, 245761042992402381626600, 245940998809127153722700,
  246051032456350815844000, 246350998809127153722700, 246810991909840005027600, 246881101771068871838500, 247131124085424003259500,
  247351193400142059254000, 248001193400142059254000, 248250973677684325632000, 248331124085424003259500, 248470633003928121855000,
  248590809454910799923000, 248630958262616342906300, 249041262714860115248600, 249170856670559060606600, 249351032456350815844000,
  249421124085424003259500, 249500645544800374157000, 250331262714860115248600, 250791042992402381626600, 250960840764089597637800,
  251040836446872411117000, 251121042992402381626600, 251361042992402381626600, 251400867590488257105900, 251420913064103968600600,
  251430913064103968600600, 251510760986876433756100, 251521068123845209717300, 251600933131173514815700, 251631124085424003259500,
  251650877700099944242700, 251660767132154355122500, 251701083538913192443000, 251711193400142059254000, 251760727529046767641900,
  251911068123845209717300, 251960877700099944242700, 252091101771068871838500, 252160907180053966307100, 252370913064103968600600,
  252391193400142059254000, 252420858409733331793500, 252520979393525709626900, 252591193400142059254000, 252890380232366197684700,
  253071022925332835411500, 253080787355841004612100, 253430510908441991940800, 253510825770074868546400, 253731101771068871838500,
  253911262714860115248600, 254171262714860115248600, 254380940827277628428500, 254540812733893082222100, 254630940827277628428500,
  254901193400142059254000, 254941042992402381626600, 255520810536002410344600, 255620877700099944242700, 257050769267466802179400,
  257360940827277628428500, 257460713821087499579900, 257710858409733331793500, 257901101771068871838500, 258180812733893082222100,
  259030722898589963473300, 259180886594848545892400, 259190818449734466217000, 259250842245598176152000, 259350898956244142610000,
  259371101771068871838500, 259441193400142059254000, 259450968270962198604600, 259580869532296842816000, 259641124085424003259500,
  259910715068504922097500, 260071083538913192443000, 260091262714860115248600, 260121152853631248437500, 260170819633180230917300,
  260290733384377642799300, 260310361282311310226000, 260320662326153404594600, 260390733384377642799300, 260410759671067976005000,
  260450913064103968600600, 260490949165438522333600, 260591124085424003259500, 260630525754788062607700, 260710886594848545892400,
  260850640457233308111700, 260860904362966269637500, 260871014224195136448600, 261021124085424003259500, 261060817280130489897900,
  261141068123845209717300, 261180805243762264910300, 261240685882760535871300, 261260629386897301279550, 261310777511833723286800,
  261430805243762264910300, 261490715908846001735450, 261570795431976669057900, 261781124085424003259500, 261850998809127153722700,
  261870998809127153722700, 261911101771068871838500, 262120886594848545892400, 262220688735568897325100, 262230808385381888248100,
  262570854961115724676500, 262741083538913192443000, 262801014224195136448600, 263291083538913192443000, 263540856670559060606600,
  263601152853631248437500, 263640625042165325385800, 263710765733530157648500, 263760804218112248191400, 263841101771068871838500,
  263881042992402381626600, 263910730413862201407800, 263951054770705947265000, 263970751516081279594200, 264080542821736046431200,
  264111124085424003259500, 264120533617382300950400, 264150877700099944242700, 264171262714860115248600, 264260714650967781049400,
  264321124085424003259500, 264351014224195136448600, 264410727529046767641900, 264461083538913192443000, 264490873532830304186000,
  264541193400142059254000, 264601006219924369095000, 264650825770074868546400, 264690599778534771503700, 264720888947898286911800,
  264770929494409097728200, 264810476812162140094800, 264871193400142059254000, 264940845276133125684800, 264950968270962198604600,
  264970759671067976005000, 265190561143618066525600, 265240806280040968465000, 265250806280040968465000, 265500877700099944242700,
  265750693678914682842500, 265801054770705947265000, 265841083538913192443000, 265970922595121949033000, 266071014224195136448600,
  266091006219924369095000, 266110888947898286911800, 266120958262616342906300, 266131032456350815844000, 266291032456350815844000,
  266391068123845209717300, 266410741766244831106500, 266461152853631248437500, 266470991909840005027600, 266810607606826610908100,
  266840508387525444703900, 266901054770705947265000, 266910854961115724676500, 267041083538913192443000, 267050672451526775111900,
  267250780686703554744900, 267530810536002410344600, 267570936905206313100400, 267711262714860115248600, 267810825770074868546400,
  267901152853631248437500, 267911068123845209717300, 267921152853631248437500, 267991262714860115248600, 268251054770705947265000,
  268511193400142059254000, 268620720219858367108300, 268641193400142059254000, 268650953610614779417000, 268661152853631248437500,
  268690801202808431122500, 268931101771068871838500, 269540888947898286911800, 269700907180053966307100, 269740891357653444817700,
  269890882048611138216600, 269970759671067976005000, 270041124085424003259500, 270120973677684325632000, 270140973677684325632000,
  270160893826914703854800, 270531022925332835411500, 270541014224195136448600, 270880933131173514815700, 271380710169566202070200,
  271460936905206313100400, 271551124085424003259500, 271891042992402381626600, 271930741766244831106500, 272110780686703554744900,
  272310714650967781049400, 273540893826914703854800, 273961068123845209717300, 274021014224195136448600, 274140973677684325632000,
  274250830966048761617600, 274310998809127153722700, 274531152853631248437500, 274630772187382271405600, 274681014224195136448600,
  274720998809127153722700, 274911193400142059254000, 274931068123845209717300, 274940640457233308111700, 275110634488185425647900]

def emitM30_2 : List Nat := [
  275120998809127153722700, 275781124085424003259500, 275831262714860115248600, 275970922595121949033000, 276040490447108468448300,
  276071193400142059254000, 276111042992402381626600, 276630833668916000409500, 276650471253089211180700, 276680846826551779281400,
  276830846826551779281400, 277000604928724343143900, 277041262714860115248600, 277121032456350815844000, 277140833668916000409500,
  277190856670559060606600, 277210654264918807731450, 277221042992402381626600, 277331042992402381626600, 277350958262616342906300,
  277430460951144124400800, 277440809454910799923000, 277481042992402381626600, 277541022925332835411500, 277641022925332835411500,
  277660830966048761617600, 277731193400142059254000, 277740936905206313100400, 277770824512196647860500, 277780839304209655522500,
  277790828334317929880200, 277841152853631248437500, 278010551890446142094500, 278070783965685837043900, 278131262714860115248600,
  278150715487792748101100, 278181124085424003259500, 278210879850720466339100, 278250760326808030621000, 278270513216236720195250,
  278330949165438522333600, 278350485608151508708000, 278370913064103968600600, 278490705880409739138900, 278500679526612386896900,
  278610736445841224760040, 278631152853631248437500, 278740707807251625726600, 278770940827277628428500, 278880685570747802246900,
  278911262714860115248600, 279001262714860115248600, 279010697817436299128000, 279021054770705947265000, 279150661588142674832400,
  279310539080925839814200, 279340913064103968600600, 279410638882397611297750, 279460873532830304186000, 279501054770705947265000,
  279530963141632759849400, 279540645963211026414450, 279630991909840005027600, 279641193400142059254000, 279690567346439028194900,
  279820808385381888248100, 279871262714860115248600, 279881262714860115248600, 280060655872301290837500, 280090721997682969236700,
  280100919316139666733900, 280140944909477080454000, 280230420955477495900300, 280341006219924369095000, 280370848401387476095300,
  280391054770705947265000, 280441152853631248437500, 280521042992402381626600, 280701152853631248437500, 280711101771068871838500,
  280920797318825099496200, 280960910078807653632400, 281001101771068871838500, 281081068123845209717300, 281180873532830304186000,
  281260929494409097728200, 281291193400142059254000, 281360888947898286911800, 281420704365229237078700, 281451262714860115248600,
  281471022925332835411500, 281490979393525709626900, 281650708588505599405900, 281700979393525709626900, 281741124085424003259500,
  281801006219924369095000, 281860936905206313100400, 281920949165438522333600, 281930848401387476095300, 281960837865335910312600,
  282010925985277116601100, 282051193400142059254000, 282070700674773543533600, 282160871512559572434000, 282460678650694377908700,
  282481101771068871838500, 282511262714860115248600, 282631152853631248437500, 282711042992402381626600, 282860577384950796640800,
  283040716331679612687560, 283170783965685837043900, 283300799241961292285000, 283310925985277116601100, 283560715487792748101100,
  283631262714860115248600, 283691262714860115248600, 283710991909840005027600, 283731193400142059254000, 283850807327170955194400,
  283901152853631248437500, 283920785646397668682100, 283931042992402381626600, 283961124085424003259500, 284150807327170955194400,
  284171006219924369095000, 284371193400142059254000, 284500654264918807731450, 284591124085424003259500, 284671006219924369095000,
  284810985455987891270400, 284971262714860115248600, 285041083538913192443000, 285161152853631248437500, 285250803202875101789500,
  285271262714860115248600, 285400922595121949033000, 285671101771068871838500, 285800697817436299128000, 285950835048248213643000,
  286111262714860115248600, 286390808385381888248100, 286570785646397668682100, 286781124085424003259500, 286890968270962198604600,
  287011262714860115248600, 287601042992402381626600, 287710577384950796640800, 287721152853631248437500, 287790856670559060606600,
  287841193400142059254000, 287890825770074868546400, 287901014224195136448600, 288451124085424003259500, 288461262714860115248600,
  288581083538913192443000, 288721006219924369095000, 288790807327170955194400, 289001083538913192443000, 289021262714860115248600,
  289030856670559060606600, 289090800217578786821400, 289251054770705947265000, 289820891357653444817700, 290040850001421610739300,
  290310863816455458821200, 290331262714860115248600, 290811262714860115248600, 290871014224195136448600, 291050800217578786821400,
  291380856670559060606600, 291510922595121949033000, 292261262714860115248600, 292291193400142059254000, 292330809454910799923000,
  292391032456350815844000, 292421032456350815844000, 292460359318747651462800, 292560756455356812551900, 292601152853631248437500,
  292730600974562317800800, 292750701402049476441600, 292790810536002410344600, 292820882048611138216600, 292890625896141480199300,
  293050502125860009936400, 293130738540158609284350, 293691042992402381626600, 293800884295896723422500, 294200973677684325632000,
  294221101771068871838500, 294361262714860115248600, 294631124085424003259500, 294941042992402381626600, 295091101771068871838500,
  295440973677684325632000, 295770991909840005027600, 295790702502978027278500, 295950674382621266420700, 296150814981178667428000,
  296161101771068871838500, 296321193400142059254000, 296401193400142059254000, 296421262714860115248600, 296640805243762264910300,
  296770491873793389511800, 296941101771068871838500, 296990884295896723422500, 297020810536002410344600, 297470998809127153722700,
  297480770716767532436100, 297501006219924369095000, 297561042992402381626600, 297850715068504922097500, 297900703243722155064600,
  297911124085424003259500, 297960811628909463563600, 298020674382621266420700, 298140811628909463563600, 298270851627473697917400,
  298631262714860115248600, 298720814981178667428000, 298981042992402381626600, 299160748548504464982600, 299260640061193186502000,
  299351193400142059254000, 299421014224195136448600, 299641193400142059254000, 299760759019599873885650, 299830875594759024459500,
  299861262714860115248600, 299961032456350815844000, 300000706646697013695800, 300011054770705947265000, 300020835048248213643000,
  300051083538913192443000, 300080949165438522333600, 300101054770705947265000, 300111262714860115248600, 300211083538913192443000,
  300280963141632759849400, 300411054770705947265000, 300530850001421610739300, 300580916141269835275900, 300591262714860115248600,
  300601068123845209717300, 300661068123845209717300, 300700817280130489897900, 300791032456350815844000, 300860666100186202879400,
  303310845276133125684800, 303320810536002410344600, 303330641454250540096700, 303341014224195136448600, 303400624533258374638760,
  303430674104456970233000, 303471124085424003259500, 303581042992402381626600, 303820991909840005027600, 304060577808231851902800,
  304101042992402381626600, 304160891357653444817700, 304171262714860115248600, 304221014224195136448600, 304240708981433413394950,
  304270643683319529933850, 304310919316139666733900, 304351262714860115248600, 304360708981433413394950, 304390848401387476095300,
  304420865685668760036400, 304460782312755641922900, 304520856670559060606600, 304560907180053966307100, 304621152853631248437500,
  304650776733619679081300, 304730750915478873573100, 304891068123845209717300, 304950998809127153722700, 305241101771068871838500,
  305260904362966269637500, 306931014224195136448600, 307070660855538665625100, 307100958262616342906300, 307171083538913192443000,
  307191042992402381626600, 307211022925332835411500, 307221193400142059254000, 307401101771068871838500, 307461054770705947265000,
  307790817280130489897900, 307891083538913192443000, 308051262714860115248600, 308311054770705947265000, 308651054770705947265000,
  308710929494409097728200, 308741193400142059254000, 308831262714860115248600, 308891262714860115248600, 309081022925332835411500,
  309131152853631248437500, 309521152853631248437500, 309590958262616342906300, 309701262714860115248600, 310141042992402381626600,
  310250817280130489897900, 310341262714860115248600, 310380998809127153722700, 310621006219924369095000, 310680979393525709626900,
  310691083538913192443000, 310700925985277116601100, 310770985455987891270400, 310801152853631248437500, 311090991909840005027600,
  311190663318717384591700, 311460991909840005027600, 311620798275770201111300, 311680944909477080454000, 311791262714860115248600,
  311811262714860115248600, 311850727056232648047300, 312061068123845209717300, 312151124085424003259500, 312371262714860115248600,
  312461262714860115248600, 312781262714860115248600, 312930949165438522333600, 313020720661360188020000, 313091124085424003259500,
  313191152853631248437500, 313481068123845209717300, 313541042992402381626600, 313770944909477080454000, 313891193400142059254000,
  313981022925332835411500, 314011193400142059254000, 314021193400142059254000, 314070944909477080454000, 314311022925332835411500,
  314350783965685837043900, 314491262714860115248600, 314561042992402381626600, 314611022925332835411500, 314810858409733331793500,
  315320662079544155075300, 315701193400142059254000, 315720760326808030621000, 316611262714860115248600, 316800901623068850826000,
  316841262714860115248600, 317051262714860115248600, 317261193400142059254000, 318111193400142059254000, 318590608611860196258300,
  319181014224195136448600, 319751014224195136448600, 320000839304209655522500, 320040709771951364106300, 320050958262616342906300,
  320111262714860115248600, 320130593630632373392200, 320320963141632759849400, 320340710969570468777800, 320470784802510804095600,
  320480679526612386896900, 320570875594759024459500, 320801006219924369095000, 321020829641526086615500, 321141124085424003259500,
  321151124085424003259500, 321430979393525709626900, 321470848401387476095300, 321600715068504922097500, 321730517011651203010600,
  322181193400142059254000, 322441262714860115248600, 322910904362966269637500, 323170998809127153722700, 323401068123845209717300,
  323531101771068871838500, 323610933131173514815700, 324180958262616342906300, 324220709771951364106300, 324260839304209655522500,
  324350593630632373392200, 324411262714860115248600, 324471193400142059254000, 324511262714860115248600, 324540679526612386896900,
  324551068123845209717300, 324610875594759024459500, 324630848401387476095300, 324671006219924369095000, 324730829641526086615500,
  324751124085424003259500, 324831101771068871838500, 324850979393525709626900, 324990933131173514815700, 325000517011651203010600]

def emitM30_3 : List Nat := [
  325110715068504922097500, 325970963141632759849400, 325990399823516012584030, 326001006219924369095000, 326450399823516012584030,
  326500860179691041733600, 326520810536002410344600, 326540539369318253104700, 326760639470058460196300, 326810681900611117204200,
  327051006219924369095000, 327241083538913192443000, 327361152853631248437500, 327520916141269835275900, 327640949165438522333600,
  327690901623068850826000, 327710913064103968600600, 327731193400142059254000, 327741068123845209717300, 328190559452434012447950,
  328220898956244142610000, 328340850001421610739300, 328520641855857505585700, 328540925985277116601100, 328581083538913192443000,
  328621124085424003259500, 328790641855857505585700, 328820884295896723422500, 328860850001421610739300, 328990682805594669195950,
  329010682805594669195950, 329181042992402381626600, 329330865685668760036400, 329430877700099944242700, 329460936905206313100400,
  329880854961115724676500, 329901124085424003259500, 329930891357653444817700, 330260929494409097728200, 330341083538913192443000,
  330670799241961292285000, 330730799241961292285000, 330980824512196647860500, 331041101771068871838500, 331500888947898286911800,
  332400824512196647860500, 332510998809127153722700, 332531262714860115248600, 332561068123845209717300, 332580488474657933670400,
  332671042992402381626600, 332761262714860115248600, 332860973677684325632000, 332880601108341601966900, 332901014224195136448600,
  332920842245598176152000, 332930940827277628428500, 333111193400142059254000, 333221068123845209717300, 333291262714860115248600,
  333691262714860115248600, 333910922595121949033000, 333940597557672756275900, 334020973677684325632000, 334060818449734466217000,
  334100901623068850826000, 334261152853631248437500, 334361006219924369095000, 334370929494409097728200, 334460882048611138216600,
  334520875594759024459500, 334570597299608096926700, 334870559452434012447950, 334891006219924369095000, 334950749724988622941200,
  335091124085424003259500, 335101124085424003259500, 335210853280403893038500, 335381083538913192443000, 335391262714860115248600,
  335410919316139666733900, 335760753339840034572400, 335860672178675309791500, 335890769989491599528100, 335901083538913192443000,
  335931193400142059254000, 336060734903394192196800, 336090772187382271405600, 336100734903394192196800, 336181262714860115248600,
  336201101771068871838500, 336330865685668760036400, 336351014224195136448600, 336431083538913192443000, 336471193400142059254000,
  336550904362966269637500, 336740779883486385018450, 336781054770705947265000, 336940873532830304186000, 337061193400142059254000,
  337070940827277628428500, 337130671906566298355500, 337140940827277628428500, 337561152853631248437500, 337750468834635299800500,
  337780940827277628428500, 337960612886645167605200, 338020671906566298355500, 338290922595121949033000, 338320563873541915289400,
  338360877700099944242700, 338531262714860115248600, 338621054770705947265000, 338651042992402381626600, 338831014224195136448600,
  338911152853631248437500, 339001068123845209717300, 339220767132154355122500, 339431193400142059254000, 339450499814471149952850,
  339930753339840034572400, 339951014224195136448600, 340210869532296842816000, 340281101771068871838500, 340300940827277628428500,
  340471262714860115248600, 340711193400142059254000, 340810861981541592001400, 340931083538913192443000, 341061262714860115248600,
  341541006219924369095000, 341641152853631248437500, 342170563873541915289400, 342550535822847295876400, 342690973677684325632000,
  342771193400142059254000, 342981262714860115248600, 342991152853631248437500, 343100882048611138216600, 343110559452434012447950,
  343141152853631248437500, 343490522530702240865600, 343820879850720466339100, 343851124085424003259500, 343941068123845209717300,
  343951068123845209717300, 343980882048611138216600, 344250973677684325632000, 344331152853631248437500, 344440925985277116601100,
  345031262714860115248600, 345881193400142059254000, 346780973677684325632000, 347010991909840005027600, 347461068123845209717300,
  347701193400142059254000, 348111152853631248437500, 348920654950635780345200, 348990877700099944242700, 349001068123845209717300,
  349030891357653444817700, 349070818449734466217000, 349091152853631248437500, 349151262714860115248600, 349201262714860115248600,
  350290963141632759849400, 350410451132889994115900, 351401152853631248437500, 351990382733613162692960, 352011006219924369095000,
  352221262714860115248600, 352581152853631248437500, 352610991909840005027600, 352640775195127795133400, 352660775195127795133400,
  352701262714860115248600, 352720991909840005027600, 352731152853631248437500, 352820587137967916823000, 353281152853631248437500,
  353471262714860115248600, 353651193400142059254000, 353730860179691041733600, 353771152853631248437500, 355160820830799335588800,
  355760783965685837043900, 355820712998037585928400, 355840979393525709626900, 356091262714860115248600, 356131262714860115248600,
  356241042992402381626600, 356571022925332835411500, 356731262714860115248600, 356960985455987891270400, 357030979393525709626900,
  357311262714860115248600, 357531262714860115248600, 357571262714860115248600, 357580985455987891270400, 357671193400142059254000,
  357681152853631248437500, 357740860179691041733600, 357771022925332835411500, 358320783965685837043900, 358340712998037585928400,
  358500820830799335588800, 358510979393525709626900, 358711042992402381626600, 358741262714860115248600, 358781262714860115248600,
  358871262714860115248600, 358950877700099944242700, 359200783965685837043900, 359371014224195136448600, 359461152853631248437500,
  359471022925332835411500, 359601262714860115248600, 359970751516081279594200, 360020817280130489897900, 360081042992402381626600,
  360200776733619679081300, 360230793580071892334200, 360310963141632759849400, 360321124085424003259500, 360400884295896723422500,
  360510856670559060606600, 360581124085424003259500, 360661014224195136448600, 360740998809127153722700, 360841022925332835411500,
  360921152853631248437500, 360930853280403893038500, 361250751516081279594200, 361290817280130489897900, 361321014224195136448600,
  361351042992402381626600, 361360998809127153722700, 361411152853631248437500, 361490776733619679081300, 361520963141632759849400,
  361541124085424003259500, 361580884295896723422500, 361691124085424003259500, 361821022925332835411500, 361870853280403893038500,
  361961152853631248437500, 362030854961115724676500, 362081006219924369095000, 362290979393525709626900, 362341101771068871838500,
  362750936905206313100400, 363051193400142059254000, 363350672725124756999400, 363390891357653444817700, 364201124085424003259500,
  365540820830799335588800, 365570879850720466339100, 366001262714860115248600, 366291042992402381626600, 366371032456350815844000,
  366710973677684325632000, 366771054770705947265000, 367100820830799335588800, 367241262714860115248600, 367311042992402381626600,
  367451032456350815844000, 367571054770705947265000, 367630795431976669057900, 367860819633180230917300, 367930721997682969236700,
  367970936905206313100400, 367980550589614790794450, 368010985455987891270400, 368051032456350815844000, 368080963141632759849400,
  368160663318717384591700, 368270904362966269637500, 368280808385381888248100, 368300618460843468428700, 368380949165438522333600,
  368420743419175026227600, 368450973677684325632000, 368741042992402381626600, 368900781496424578006800, 368950968270962198604600,
  368990618460843468428700, 369131083538913192443000, 369140904362966269637500, 369351124085424003259500, 369380871512559572434000,
  369390663318717384591700, 369470732883123460444900, 369480550589614790794450, 369510953610614779417000, 369531042992402381626600,
  369561042992402381626600, 369600808385381888248100, 369651042992402381626600, 369740780686703554744900, 369811124085424003259500,
  369830985455987891270400, 369860953610614779417000, 369880936905206313100400, 369910953610614779417000, 369930963141632759849400,
  370020721997682969236700, 370090919316139666733900, 370251262714860115248600, 370270702872664215411100, 370300705880409739138900,
  370381042992402381626600, 370411101771068871838500, 370431193400142059254000, 370451262714860115248600, 370660998809127153722700,
  370700879850720466339100, 370730813851223142034600, 370961193400142059254000, 371010801202808431122500, 371091042992402381626600,
  371120933131173514815700, 371170609627097342660000, 371221152853631248437500, 371290689380732425474000, 371650813851223142034600,
  371691124085424003259500, 371700933131173514815700, 371950860179691041733600, 371971262714860115248600, 372021042992402381626600,
  373240451132889994115900, 373251193400142059254000, 373260985455987891270400, 373271014224195136448600, 373290662079544155075300,
  373471193400142059254000, 375040913064103968600600, 375091014224195136448600, 375321068123845209717300, 375500901623068850826000,
  375861101771068871838500, 376101054770705947265000, 376281152853631248437500, 376661032456350815844000, 376700916141269835275900,
  376750807327170955194400, 376791262714860115248600, 377950869532296842816000, 378060958262616342906300, 378571068123845209717300,
  379120958262616342906300, 379410837865335910312600, 380021262714860115248600, 380121152853631248437500, 380140901623068850826000,
  380351193400142059254000, 380470958262616342906300, 380501152853631248437500, 380541152853631248437500, 380651032456350815844000,
  380810837865335910312600, 381081014224195136448600, 381340913064103968600600, 381381054770705947265000, 381551101771068871838500,
  381691262714860115248600, 381770807327170955194400, 381791152853631248437500, 381820916141269835275900, 382150958262616342906300,
  382361068123845209717300, 382621262714860115248600, 382630759019599873885650, 382710759019599873885650, 382720547487974511994700,
  382830766430397089257800, 382910933131173514815700, 383071101771068871838500, 383170991909840005027600, 383640677207667895005800,
  383760547487974511994700, 383880933131173514815700, 383951124085424003259500, 383980991909840005027600, 384011101771068871838500,
  384280933131173514815700, 384330933131173514815700, 384421068123845209717300, 384510481436578257490400, 384520777511833723286800,
  384630667911361197183950, 384640783135805555574500, 384661083538913192443000, 384681054770705947265000, 384690860179691041733600,
  384701032456350815844000, 384711083538913192443000, 384730973677684325632000, 384851262714860115248600, 384880973677684325632000]

def emitM30_4 : List Nat := [
  384931262714860115248600, 384950991909840005027600, 384980802197841516439400, 385120777511833723286800, 385170646594127945740900,
  385180745099886857865600, 385201032456350815844000, 385250481436578257490400, 385330916141269835275900, 385340732883123460444900,
  385410846826551779281400, 385440822042935388823200, 385550860179691041733600, 385770822042935388823200, 385801083538913192443000,
  385901124085424003259500, 385920851627473697917400, 385930991909840005027600, 385960786497466635473000, 385970714650967781049400,
  385980949165438522333600, 386050846826551779281400, 386170746809330193795700, 386220901623068850826000, 386271124085424003259500,
  386340792666823536006950, 386420628855452294930300, 386470769989491599528100, 386511083538913192443000, 386540884295896723422500,
  386601124085424003259500, 386690998809127153722700, 386860818449734466217000, 386950884295896723422500, 387060991909840005027600,
  387121152853631248437500, 387280825770074868546400, 387380856670559060606600, 387420882048611138216600, 387451042992402381626600,
  387481042992402381626600, 387500798275770201111300, 387540949165438522333600, 387610789976078244014500, 387801262714860115248600,
  387970793580071892334200, 388080944909477080454000, 388590936905206313100400, 388671054770705947265000, 388860936905206313100400,
  388891054770705947265000, 388990784802510804095600, 389140705119949800616900, 389180791761839984015100, 389200922595121949033000,
  389310858409733331793500, 389350944909477080454000, 389361193400142059254000, 389570690356349920010450, 389910875594759024459500,
  390300705119949800616900, 390340791761839984015100, 390350922595121949033000, 390390858409733331793500, 390461193400142059254000,
  390470944909477080454000, 390530985455987891270400, 390680875594759024459500, 390800767838871077431800, 391180767838871077431800,
  391311083538913192443000, 391341083538913192443000, 391351193400142059254000, 391510865685668760036400, 391920949165438522333600,
  392500919316139666733900, 392770865685668760036400, 392860919316139666733900, 393180893826914703854800, 393210725187019346832100,
  393400506342893273811900, 393781124085424003259500, 394051068123845209717300, 394720888947898286911800, 394981022925332835411500,
  395151152853631248437500, 395320506342893273811900, 395451124085424003259500, 395511152853631248437500, 395571022925332835411500,
  395591068123845209717300, 395920991909840005027600, 396360910078807653632400, 396400505310359578028600, 396751124085424003259500,
  396830919316139666733900, 397171083538913192443000, 397700758372348423323900, 397910524067775232259200, 398540724725124761202600,
  398811152853631248437500, 400600758372348423323900, 400650524067775232259200, 400920724725124761202600, 401001152853631248437500,
  401791032456350815844000, 401800985455987891270400, 402011193400142059254000, 402320884295896723422500, 402850919316139666733900,
  403001193400142059254000, 403061193400142059254000, 403721124085424003259500, 404411262714860115248600, 404810901623068850826000,
  404830985455987891270400, 404861193400142059254000, 404930884295896723422500, 405170919316139666733900, 405221193400142059254000,
  405271193400142059254000, 405481124085424003259500, 405601262714860115248600, 405730891357653444817700, 405750708588505599405900,
  405990865685668760036400, 406071054770705947265000, 406130765733530157648500, 406140765733530157648500, 406351006219924369095000,
  406430790864972985739100, 406440790864972985739100, 406540658214328711647400, 406570766430397089257800, 406601124085424003259500,
  406640893826914703854800, 407181193400142059254000, 407230886594848545892400, 407631054770705947265000, 407780713408715781193700,
  407840713408715781193700, 408011124085424003259500, 408361124085424003259500, 408450507911963121747200, 408481006219924369095000,
  408570507911963121747200, 408601152853631248437500, 408631152853631248437500]

def emitM31_0 : List Nat := [
  199680716816187179868600, 199690858768188054689800, 199710841441015927286200, 199770755420889404975000, 199780867223926857496000,
  199790920286751963713100, 199820839193730342080200, 199870890276292718679200, 199900786786645290479100, 199921011915825151128700,
  199940414375957209009700, 199960567797866563242600, 200041011915825151128700, 200130415205043590804300, 200160691033276249658700,
  200200772126297871291540, 200251000137521585490300, 200260942601107095134200, 200270585121058353511200, 200301109998750452301200,
  200410737831822758608500, 200480612555525909071700, 200500971369314340312200, 200511011915825151128700, 200610942601107095134200,
  200630930822803529495800, 200651219859979319112100, 200700603108330230278100, 200801058916188075702200, 201070596223020298741800,
  201080738641543781870400, 201131081230543207123000, 201140942601107095134200, 201160936538644913490600, 201171040684032396306700,
  201220583902592451874500, 201260583902592451874500, 201320456184768075534200, 201350476139342631982900, 201400455751554401620800,
  201540436381168580292700, 201610886639528301591900, 201821219859979319112100, 201831058916188075702200, 201950687558981405271400,
  201961058916188075702200, 202021025268964413580800, 202101150545261263117600, 202150942601107095134200, 202190850972033907718600,
  202210763425160172328600, 202250936538644913490600, 202340826677416046679700, 202470786786645290479100, 202500525934584714961400,
  202560790814035204273100, 202620673476798816551200, 202710805546506679959000, 203010861508085473501200, 203031219859979319112100,
  203070718796449909486600, 203130971369314340312200, 203150643654841041094500, 203160679142802173100350, 203290745366766482787200,
  203391219859979319112100, 203510864325173170170800, 203581150545261263117600, 203791219859979319112100, 203811011915825151128700,
  203920906310557726197200, 204190808772592901781100, 204200906310557726197200, 204450706280135614086000, 204490494867425647313500,
  204651011915825151128700, 205051081230543207123000, 205230673476798816551200, 205380963365043572958500, 205400980070452039275000,
  205511150545261263117600, 205811081230543207123000, 206330724277273558986150, 206480758347927634986300, 206590790814035204273100,
  206610963365043572958500, 206890906310557726197200, 207290942601107095134200, 207361025268964413580800, 207860758347927634986300,
  207990915407735546769900, 208031219859979319112100, 208041081230543207123000, 208080980070452039275000, 208090784189096650153100,
  208110706870107826804900, 208180915407735546769900, 208260614181577996249750, 208371150545261263117600, 208390856101363346473600,
  208400665733624803269600, 208411011915825151128700, 208430848502772648681400, 208440424633648453407600, 208450930822803529495800,
  208480621718558193664200, 208490406854075319832550, 208510858768188054689800, 208520651162443685130200, 208530830677949508049500,
  208540971369314340312200, 208560786786645290479100, 208571011915825151128700, 208591219859979319112100, 208640790814035204273100,
  208690856101363346473600, 208721219859979319112100, 208740930822803529495800, 208760930822803529495800, 208910476198252795689600,
  208920571549244173392350, 209121150545261263117600, 209171219859979319112100, 209181025268964413580800, 209340870209223172464200,
  209860572009015098255300, 209871058916188075702200, 209891219859979319112100, 209980772126297871291540, 210091025268964413580800,
  210100789453469998695200, 210150876461258870597600, 210190955954246357586300, 210290915407735546769900, 210330605013149727347500,
  210350915407735546769900, 210460692048513396060500, 210480516951222904146000, 210691040684032396306700, 210730819126660795865100,
  210950710484959238436000, 211090955954246357586300, 211230789453469998695200, 211270710484959238436000, 211330819126660795865100,
  211470750725191096197800, 211491058916188075702200, 211500760347994305653250, 211511081230543207123000, 211520635795813581772300,
  211530418459479841166400, 211600745366766482787200, 211710735441270673253100, 212020797909208801501500, 212050745366766482787200,
  212090418459479841166400, 212140735441270673253100, 212200942601107095134200, 212401058916188075702200, 212700611866659809553150,
  212710616551357139232100, 212950621214778790668500, 213050879740241152896700, 213060738641543781870400, 213070600012107669881400,
  213120738641543781870400, 213130803971670983145000, 213211150545261263117600, 213260466170266362495200, 213270526031530917416200,
  213320526031530917416200, 213340930822803529495800, 213350511857329326853200, 213381109998750452301200, 213451219859979319112100,
  213550664177173149158400, 213600699459310611432600, 213820810425523096902200, 214070784189096650153100, 214391219859979319112100,
  214420805546506679959000, 214430805546506679959000, 214500886639528301591900, 214510864325173170170800, 214570514847727292206300,
  214621219859979319112100, 214750597999967349939250, 214760739457874845786600, 214870902054596284317600, 214880910755733983280500,
  214900726412586006043000, 214941109998750452301200, 214960980070452039275000, 215120453519212829764200, 215131011915825151128700,
  215160639648141781405900, 215180942601107095134200, 215201109998750452301200, 215211150545261263117600, 215310876461258870597600,
  215550867223926857496000, 215560867223926857496000, 215661025268964413580800, 215920474041363585063500, 216190853503814706147600,
  216290620214770457210100, 216440664177173149158400, 216721025268964413580800, 216970639648141781405900, 217040724983990281295400,
  217290474041363585063500, 217330657097867950048500, 217460925416081402468100, 217761219859979319112100, 218091058916188075702200,
  218300459719745860738900, 218390810425523096902200, 218600785479437133743800, 218921219859979319112100, 220250949054959208891300,
  221200802421252329548600, 222350805546506679959000, 222381219859979319112100, 222420677806479391883600, 222601109998750452301200,
  222690239769882943009500, 222700754463944303359800, 222830239769882943009500, 222851109998750452301200, 222940754463944303359800,
  222960677806479391883600, 223030727861886736299700, 223070861508085473501200, 223121219859979319112100, 223171081230543207123000,
  223200807146540814603000, 223230567503748704160900, 223300963365043572958500, 223621150545261263117600, 223630748906959187878800,
  223650980070452039275000, 223690839193730342080200, 223740723575516293121450, 224111150545261263117600, 224181109998750452301200,
  224381040684032396306700, 224670784189096650153100, 224780782915194072410100, 224840722878649361512200, 225190910755733983280500,
  225220613017420494701200, 225301025268964413580800, 225331150545261263117600, 225610779188054592686900, 225770775594853670080600,
  225800963365043572958500, 226091081230543207123000, 226120949054959208891300, 226220980070452039275000, 226590817324810245597400,
  227181040684032396306700, 227270748906959187878800, 227441109998750452301200, 227610980070452039275000, 227630743642585839336600,
  227680980070452039275000, 227711150545261263117600, 227811081230543207123000, 227881219859979319112100, 227910724277273558986150,
  227970792193367417506700, 227990726412586006043000, 228050870209223172464200, 228060593139924464976000, 228100902054596284317600,
  228181150545261263117600, 228230320641543101811000, 228250688047979934690500, 228260714874378594158500, 228270886639528301591900,
  228300392322341835471540, 228360858768188054689800, 228391025268964413580800, 228560789453469998695200, 228850747121197447878150,
  228870747121197447878150, 228990853503814706147600, 229090949054959208891300, 229190886639528301591900, 229821109998750452301200,
  229960447503732091315200, 230410826677416046679700, 230431150545261263117600, 231420886639528301591900, 231861081230543207123000,
  232730949054959208891300, 233760808772592901781100, 233830853503814706147600, 233860942601107095134200, 233911150545261263117600,
  233980410483203526004200, 234160410483203526004200, 234250727861886736299700, 234310883130396320464900, 234330573713161683740400,
  234391219859979319112100, 234471219859979319112100, 234481025268964413580800, 234500883130396320464900, 234531058916188075702200,
  234540861508085473501200, 234571000137521585490300, 234580949054959208891300, 234590796449328859386300, 234601219859979319112100,
  234671081230543207123000, 234701081230543207123000, 234780450102444638877850, 234851219859979319112100, 234860915407735546769900,
  234940936538644913490600, 235001109998750452301200, 235190711100345795873800, 235260861508085473501200, 235270727861886736299700,
  235280936538644913490600, 235291000137521585490300, 235321219859979319112100, 235421058916188075702200, 235450949054959208891300,
  235481011915825151128700, 235511081230543207123000, 235531040684032396306700, 235560925416081402468100, 235600890276292718679200,
  235650949054959208891300, 235661011915825151128700, 235670980070452039275000, 235690902054596284317600, 235720648817277581625300,
  236120668517104702614000, 236160815554852535657200, 236211150545261263117600, 236220856101363346473600, 236260856101363346473600,
  236271150545261263117600, 236370665733624803269600, 236460963365043572958500, 236600963365043572958500, 236650651162443685130200,
  237031150545261263117600, 237070676925416423668100, 237131219859979319112100, 237211219859979319112100, 237251150545261263117600,
  237361000137521585490300, 237770786786645290479100, 237980676925416423668100, 238050786786645290479100, 238311150545261263117600,
  239941150545261263117600, 240290648817277581625300, 240300568983065621944000, 240341040684032396306700, 240370457251703511874100,
  240381219859979319112100, 240520730825066496936900, 240650636086934602518200, 240660483026010687974150, 240671000137521585490300,
  240720670553834985057300, 240761150545261263117600, 240930843739967749756000, 241021219859979319112100, 241070670553834985057300,
  241090925416081402468100, 241181219859979319112100, 241200584249213249523100, 241630636086934602518200, 241790805546506679959000,
  241800649815621980043550, 241910695685277813148000, 241961025268964413580800, 241980697285311947792100, 242110971369314340312200,
  242200761363231452055000, 242221150545261263117600, 242300703954449397659300, 242350971369314340312200, 242470799390717380015600,
  242651219859979319112100, 242910695685277813148000, 243110920286751963713100, 243140578842491122495500, 243200638148863322791800,
  243351109998750452301200, 243511081230543207123000, 244021058916188075702200, 244051150545261263117600, 244330702245006061729300]

def emitM31_1 : List Nat := [
  244430906310557726197200, 244491109998750452301200, 244520942601107095134200, 244590799390717380015600, 244600942601107095134200,
  244650942601107095134200, 244711150545261263117600, 245011109998750452301200, 245030802421252329548600, 245050906310557726197200,
  245090915407735546769900, 245151000137521585490300, 245350680952806337462100, 245550902054596284317600, 245651109998750452301200,
  246131219859979319112100, 246350580835912612577200, 246810846093017490775300, 246870748010092189602700, 247351025268964413580800,
  247730906310557726197200, 248190802421252329548600, 248470752577095872921600, 248590883130396320464900, 248950752577095872921600,
  249041219859979319112100, 249171025268964413580800, 249500697285311947792100, 251011025268964413580800, 251030788111167965481100,
  251041219859979319112100, 251120600012107669881400, 251360600012107669881400, 251380788111167965481100, 251511109998750452301200,
  251710746240134479662700, 251760836995839670202600, 251910910755733983280500, 252060980070452039275000, 252160722186605077054700,
  252370716816187179868600, 252391025268964413580800, 252421025268964413580800, 252521081230543207123000, 252530775594853670080600,
  252771081230543207123000, 252890727134610803391700, 252931081230543207123000, 253430861508085473501200, 253510971369314340312200,
  253731081230543207123000, 253810989601470019707600, 254801219859979319112100, 254901040684032396306700, 255111081230543207123000,
  255521058916188075702200, 255820989601470019707600, 256681081230543207123000, 257050980070452039275000, 257711025268964413580800,
  257730740280924759438100, 257901081230543207123000, 258021058916188075702200, 258051109998750452301200, 258851081230543207123000,
  259131058916188075702200, 259180567210493362033200, 259190316834348306870200, 259321040684032396306700, 259420942601107095134200,
  259450664952370829590200, 259580718131995637619800, 259680925416081402468100, 259721219859979319112100, 259731040684032396306700,
  259760925416081402468100, 259910602273252308536100, 260090963365043572958500, 260310571243900424703300, 260320727134610803391700,
  260410634352787098869500, 260530784189096650153100, 260630776778299434780800, 260710674756133962542100, 260801109998750452301200,
  260850762388881468773950, 260860695157572103063600, 260891040684032396306700, 261020751646856606690200, 261181109998750452301200,
  261241000137521585490300, 261260776778299434780800, 261310489072701242741600, 261430767681121614208200, 261490883130396320464900,
  261780751646856606690200, 261851150545261263117600, 261871150545261263117600, 262120949054959208891300, 262161150545261263117600,
  262220788111167965481100, 263540980070452039275000, 263600603108330230278100, 263640915407735546769900, 263680795010455114176300,
  263710525934584714961400, 263761109998750452301200, 263770673476798816551200, 263811025268964413580800, 263911011915825151128700,
  263951109998750452301200, 263971025268964413580800, 263990730825066496936900, 264080925416081402468100, 264120552025767853679000,
  264150633496861759302500, 264260744500960208475700, 264341040684032396306700, 264350832739878228323000, 264410848502772648681400,
  264481081230543207123000, 264491109998750452301200, 264600920286751963713100, 264651219859979319112100, 264691150545261263117600,
  264810567797866563242600, 264941109998750452301200, 264970910755733983280500, 265190639045730321067800, 265240949054959208891300,
  265251219859979319112100, 265750942601107095134200, 265801219859979319112100, 265970828657678776297700, 266120949054959208891300,
  266310861508085473501200, 266571058916188075702200, 266661109998750452301200, 266800757362697990685100, 266810813815678264470300,
  266840663791816217559500, 266900886639528301591900, 266960803971670983145000, 267051011915825151128700, 267230803971670983145000,
  267250673053965205599100, 267570936538644913490600, 267811219859979319112100, 267901150545261263117600, 268000861508085473501200,
  268160754463944303359800, 268251219859979319112100, 268271040684032396306700, 268620906310557726197200, 268931058916188075702200,
  269890414375957209009700, 269970910755733983280500, 270541219859979319112100, 271380612555525909071700, 271610861508085473501200,
  272110673053965205599100, 272310744500960208475700, 272840803971670983145000, 272980754463944303359800, 274020832739878228323000,
  274310826677416046679700, 274631000137521585490300, 274680848502772648681400, 274720826677416046679700, 274911025268964413580800,
  274940803971670983145000, 275110810425523096902200, 275121058916188075702200, 275301109998750452301200, 275310971369314340312200,
  275440971369314340312200, 275801150545261263117600, 276040680952806337462100, 276110963365043572958500, 276631025268964413580800,
  276650382782062023042100, 276680736231788623964400, 276830736231788623964400, 277000672213624125961100, 277141040684032396306700,
  277190621214778790668500, 277210735441270673253100, 277430669326825725875900, 277481219859979319112100, 277661081230543207123000,
  277730601239116929062900, 277791150545261263117600, 278010930822803529495800, 278270779188054592686900, 278330623502044957267550,
  278350559736967446224600, 278411219859979319112100, 278491025268964413580800, 278501040684032396306700, 278610561657465429829550,
  278720949054959208891300, 278740930822803529495800, 278771109998750452301200, 278800930822803529495800, 278880813815678264470300,
  278911109998750452301200, 279021150545261263117600, 279051150545261263117600, 279150636965417558091500, 279310906310557726197200,
  279410639950713873059600, 279461150545261263117600, 279540563474426665899500, 279661040684032396306700, 279690980070452039275000,
  279790942601107095134200, 279820646202749571193000, 279931109998750452301200, 280060803971670983145000, 280091150545261263117600,
  280100890276292718679200, 280230441871467812059900, 280391150545261263117600, 280400883130396320464900, 280700879740241152896700,
  280961109998750452301200, 281650832739878228323000, 281800955954246357586300, 281951025268964413580800, 281971219859979319112100,
  282011025268964413580800, 282040942601107095134200, 282070607391640229691700, 282160792193367417506700, 282460930822803529495800,
  282481058916188075702200, 282510955954246357586300, 282711219859979319112100, 282860760347994305653250, 283040700010276192529600,
  283100870209223172464200, 283301109998750452301200, 283311025268964413580800, 283851150545261263117600, 283900963365043572958500,
  283920897972396832292200, 283930971369314340312200, 284151150545261263117600, 284170955954246357586300, 284361081230543207123000,
  284500735441270673253100, 285001150545261263117600, 285071219859979319112100, 285081219859979319112100, 285160879740241152896700,
  285251025268964413580800, 285261150545261263117600, 285951109998750452301200, 286390646202749571193000, 286570897972396832292200,
  287600971369314340312200, 287710760347994305653250, 287720963365043572958500, 287790910755733983280500, 288450989601470019707600,
  288460870209223172464200, 288570853503814706147600, 288580942601107095134200, 288601040684032396306700, 288951150545261263117600,
  289210963365043572958500, 289611109998750452301200, 289820839193730342080200, 290011040684032396306700, 290040925416081402468100,
  290171150545261263117600, 290280826677416046679700, 290661219859979319112100, 290811219859979319112100, 291511219859979319112100,
  292330883130396320464900, 292460648817277581625300, 292550748010092189602700, 292560587963167944468800, 292600955954246357586300,
  292730812106234928540300, 292750830677949508049500, 292871150545261263117600, 292890724983990281295400, 293050697285311947792100,
  293921219859979319112100, 294201109998750452301200, 294831150545261263117600, 294860864325173170170800, 295441109998750452301200,
  295630864325173170170800, 295771150545261263117600, 295790666917070567969900, 295951011915825151128700, 296150800894505116469600,
  296161011915825151128700, 296270822830787963900000, 296640839193730342080200, 296770858768188054689800, 296941011915825151128700,
  296990815554852535657200, 297020529084451420898500, 297900955954246357586300, 298021011915825151128700, 298720800894505116469600,
  299161025268964413580800, 299260942601107095134200, 299761081230543207123000, 299830494089211603108000, 299860476139342631982900,
  299920680497224683876000, 300000799390717380015600, 300010773269167453653900, 300021150545261263117600, 300050495723350986880450,
  300070930822803529495800, 300080925416081402468100, 300110832739878228323000, 300280602065567914052200, 300411150545261263117600,
  300581109998750452301200, 300590832739878228323000, 300860790814035204273100, 301231219859979319112100, 301421058916188075702200,
  301491150545261263117600, 302441150545261263117600, 302841219859979319112100, 303310867223926857496000, 303320514847727292206300,
  303330728594490745507000, 303340873286389039139600, 303430670143156789792000, 303581219859979319112100, 304170555091141962779200,
  304270764472290159058150, 304310680952806337462100, 304350555091141962779200, 304501219859979319112100, 304521150545261263117600,
  304650526420258326256400, 304951150545261263117600, 305241219859979319112100, 305260786786645290479100, 305630663407938586842900,
  306930876461258870597600, 307070680952806337462100, 307100949054959208891300, 307190971369314340312200, 307400591074123302933800,
  307721219859979319112100, 307841219859979319112100, 308281219859979319112100, 308971081230543207123000, 309590949054959208891300,
  309901219859979319112100, 310140971369314340312200, 310380561657465429829550, 310701150545261263117600, 310801150545261263117600,
  311190659279772689512460, 311850465162567567459550, 311921058916188075702200, 312061219859979319112100, 312270936538644913490600,
  312370796449328859386300, 312430761363231452055000, 312460796449328859386300, 312910886639528301591900, 313021150545261263117600,
  313500592007836902527700, 313540602065567914052200, 314350890276292718679200, 314610841441015927286200, 315320744500960208475700,
  315610925416081402468100, 315690930822803529495800, 315740846093017490775300, 316091040684032396306700, 316390834845219148106400,
  316490570484595333943600, 316610864325173170170800, 316840710484959238436000, 316890930822803529495800, 317261150545261263117600,
  318111150545261263117600, 318201040684032396306700, 318210830677949508049500, 318591040684032396306700, 318671219859979319112100,
  319180839193730342080200, 319340850972033907718600, 319580740280924759438100, 319750839193730342080200, 319950910755733983280500]

def emitM31_2 : List Nat := [
  320000805546506679959000, 320040618488463714832000, 320050598799971616646900, 320130920286751963713100, 320160906310557726197200,
  320260703954449397659300, 320321025268964413580800, 320331109998750452301200, 320341081230543207123000, 320391219859979319112100,
  320431081230543207123000, 320471219859979319112100, 320680510519516732235600, 320800963365043572958500, 320970883130396320464900,
  321021150545261263117600, 321130618244263349276850, 321470613249170308737400, 321561081230543207123000, 321730742791516872545700,
  321780850972033907718600, 322021219859979319112100, 322180955954246357586300, 322321150545261263117600, 322911219859979319112100,
  323051058916188075702200, 323170580835912612577200, 323400792193367417506700, 323621219859979319112100, 324061109998750452301200,
  324121219859979319112100, 324180598799971616646900, 324201109998750452301200, 324220618488463714832000, 324230703954449397659300,
  324260805546506679959000, 324350920286751963713100, 324371058916188075702200, 324421109998750452301200, 324450906310557726197200,
  324470955954246357586300, 324520510519516732235600, 324550792193367417506700, 324630613249170308737400, 324670963365043572958500,
  324721219859979319112100, 324731150545261263117600, 324760883130396320464900, 324790618244263349276850, 325000742791516872545700,
  325081081230543207123000, 325181219859979319112100, 325341150545261263117600, 325930850972033907718600, 325990750725191096197800,
  326450750725191096197800, 326500910755733983280500, 326540693074163412779400, 326810737831822758608500, 327010955954246357586300,
  327520925416081402468100, 327680822830787963900000, 327691058916188075702200, 327711058916188075702200, 327730864325173170170800,
  328190925416081402468100, 328220832739878228323000, 328520475904048405780240, 328540861508085473501200, 328620760347994305653250,
  328790475904048405780240, 328820980070452039275000, 328991058916188075702200, 329011058916188075702200, 329290691033276249658700,
  329330873286389039139600, 329431219859979319112100, 329460718131995637619800, 329591150545261263117600, 329901058916188075702200,
  330210769879012286085700, 330391150545261263117600, 330411150545261263117600, 330671219859979319112100, 330731219859979319112100,
  330980853503814706147600, 331261150545261263117600, 331311150545261263117600, 332400853503814706147600, 332471150545261263117600,
  332560772126297871291540, 332580699459310611432600, 332680971369314340312200, 332870839193730342080200, 332880651162443685130200,
  332891109998750452301200, 333081025268964413580800, 333100819126660795865100, 333220640254204242575000, 333280672632911951964700,
  333340955954246357586300, 333370834845219148106400, 333511150545261263117600, 333820672632911951964700, 333911150545261263117600,
  333940841441015927286200, 334020722878649361512200, 334361109998750452301200, 334370834845219148106400, 334530897972396832292200,
  334570817324810245597400, 334591219859979319112100, 334870744500960208475700, 335211219859979319112100, 335291150545261263117600,
  335390710484959238436000, 335761219859979319112100, 335861011915825151128700, 335901109998750452301200, 336090910755733983280500,
  336351219859979319112100, 336470718131995637619800, 336741025268964413580800, 336781025268964413580800, 336941109998750452301200,
  337071150545261263117600, 337130834845219148106400, 337750466170266362495200, 337771025268964413580800, 337781081230543207123000,
  337960955954246357586300, 338020834845219148106400, 338291219859979319112100, 338321000137521585490300, 338651109998750452301200,
  339221219859979319112100, 339450873286389039139600, 339881081230543207123000, 341541109998750452301200, 341740897972396832292200,
  342171000137521585490300, 342550826677416046679700, 342690722878649361512200, 342770718131995637619800, 343110744500960208475700,
  343151150545261263117600, 343490621718558193664200, 343821150545261263117600, 343891219859979319112100, 344111109998750452301200,
  344250989601470019707600, 347010741947630007959300, 348021109998750452301200, 348801219859979319112100, 348920673053965205599100,
  348990633496861759302500, 349070664177173149158400, 349200711719542820665900, 350091150545261263117600, 350100861508085473501200,
  350130799390717380015600, 350370799390717380015600, 350410826677416046679700, 351990656381019002187200, 352150949054959208891300,
  352220664952370829590200, 352641219859979319112100, 352661219859979319112100, 352680949054959208891300, 352700664952370829590200,
  352821150545261263117600, 352990576405327440366900, 353281040684032396306700, 353360602065567914052200, 353380850972033907718600,
  353471025268964413580800, 353520739457874845786600, 353701040684032396306700, 353730529988525886113400, 354130980070452039275000,
  354261025268964413580800, 354301219859979319112100, 354410883130396320464900, 354691150545261263117600, 354860942601107095134200,
  354881040684032396306700, 354981081230543207123000, 355160971369314340312200, 355190942601107095134200, 355420980070452039275000,
  355661025268964413580800, 355761219859979319112100, 355820839193730342080200, 355840963365043572958500, 356570448794646968992100,
  356720864325173170170800, 356860789453469998695200, 356951109998750452301200, 356960643027879739734900, 357031081230543207123000,
  357121219859979319112100, 357450602065567914052200, 357481150545261263117600, 357571025268964413580800, 357580643027879739734900,
  357590850972033907718600, 357600739457874845786600, 357700980070452039275000, 357740529988525886113400, 357751040684032396306700,
  357770448794646968992100, 357800980070452039275000, 357820864325173170170800, 357931109998750452301200, 357971219859979319112100,
  358021040684032396306700, 358050883130396320464900, 358101025268964413580800, 358210942601107095134200, 358281081230543207123000,
  358321219859979319112100, 358340839193730342080200, 358351219859979319112100, 358430942601107095134200, 358500971369314340312200,
  358510963365043572958500, 359101150545261263117600, 359200691033276249658700, 359370839193730342080200, 359471219859979319112100,
  359871150545261263117600, 359970858768188054689800, 359981081230543207123000, 360010646850001021754700, 360070980070452039275000,
  360080612095754984208800, 360120883130396320464900, 360201109998750452301200, 360231058916188075702200, 360270963365043572958500,
  360310646525851629337640, 360390648486698768175300, 360510915407735546769900, 360670930822803529495800, 360740843739967749756000,
  360840902054596284317600, 361250858768188054689800, 361261081230543207123000, 361300646850001021754700, 361310883130396320464900,
  361350612095754984208800, 361360843739967749756000, 361390980070452039275000, 361491109998750452301200, 361520646525851629337640,
  361530963365043572958500, 361640648486698768175300, 361820902054596284317600, 361961058916188075702200, 362031150545261263117600,
  362151011915825151128700, 362750759342960720303050, 363051219859979319112100, 363350768774028667427200, 363390963365043572958500,
  364240980070452039275000, 365540634066663870766250, 365570476198252795689600, 365750906310557726197200, 366291081230543207123000,
  366351150545261263117600, 366500841441015927286200, 366640848502772648681400, 367100634066663870766250, 367180841441015927286200,
  367190906310557726197200, 367311081230543207123000, 367421150545261263117600, 367550848502772648681400, 367630902054596284317600,
  367661058916188075702200, 367740760347994305653250, 367811058916188075702200, 367841150545261263117600, 367860571549244173392350,
  367931150545261263117600, 367980853503814706147600, 368050980070452039275000, 368160856101363346473600, 368170920286751963713100,
  368270743642585839336600, 368280836995839670202600, 368300795010455114176300, 368420867223926857496000, 368731219859979319112100,
  368741219859979319112100, 368900522880912328953200, 368951219859979319112100, 368960897972396832292200, 368990795010455114176300,
  369140743642585839336600, 369380792193367417506700, 369390856101363346473600, 369470721499317148278600, 369480853503814706147600,
  369511109998750452301200, 369561219859979319112100, 369600836995839670202600, 369841219859979319112100, 369861109998750452301200,
  370021150545261263117600, 370270980070452039275000, 370300675618208266932800, 370380883130396320464900, 370960675186242152481200,
  371090883130396320464900, 371121219859979319112100, 371170743642585839336600, 371221219859979319112100, 371291219859979319112100,
  371701219859979319112100, 371951040684032396306700, 372020828657678776297700, 372371219859979319112100, 372910600012107669881400,
  373240826677416046679700, 373250830677949508049500, 373260784189096650153100, 373270890276292718679200, 373290525547737037169300,
  373961150545261263117600, 374281081230543207123000, 374921150545261263117600, 375040309551061196191530, 375090980070452039275000,
  375590942601107095134200, 375691040684032396306700, 375860980070452039275000, 376280615122761414484400, 376361150545261263117600,
  376751219859979319112100, 378571150545261263117600, 379410609828084117105800, 379691150545261263117600, 380461150545261263117600,
  380500615122761414484400, 380810609828084117105800, 380831081230543207123000, 381080980070452039275000, 381091040684032396306700,
  381340309551061196191530, 381440942601107095134200, 381550980070452039275000, 381771219859979319112100, 382361150545261263117600,
  382630665342234871156000, 382710665342234871156000, 382720695157572103063600, 382830638148863322791800, 382911058916188075702200,
  383640858768188054689800, 383760695157572103063600, 383820810425523096902200, 383881058916188075702200, 383950760347994305653250,
  384281219859979319112100, 384421219859979319112100, 384500659648097231142100, 384510762388881468773950, 384530936538644913490600,
  384631025268964413580800, 384680980070452039275000, 384690530089485006248700, 384700623502044957267550, 384800680043709167336900,
  384851150545261263117600, 384931150545261263117600, 384980627167376722071200, 384990936538644913490600, 385050861508085473501200,
  385170963365043572958500, 385200623502044957267550, 385250762388881468773950, 385340930822803529495800, 385550530089485006248700,
  385560942601107095134200, 385671219859979319112100, 385700861508085473501200, 385820902054596284317600, 385840902054596284317600,
  385901081230543207123000, 385971109998750452301200, 385980467403856690576200, 386201040684032396306700, 386221150545261263117600,
  386271081230543207123000, 386421081230543207123000, 386471011915825151128700, 386510495723350986880450, 386631040684032396306700]

def emitM31_3 : List Nat := [
  387380646850001021754700, 387500789453469998695200, 387540774425249693761400, 387610617757644384159600, 387971081230543207123000,
  388591058916188075702200, 388671025268964413580800, 388861058916188075702200, 388891025268964413580800, 388990681870243965066300,
  389141219859979319112100, 389181011915825151128700, 389281081230543207123000, 389310718796449909486600, 389361081230543207123000,
  389570858768188054689800, 390000752577095872921600, 390061219859979319112100, 390150810425523096902200, 390301219859979319112100,
  390341011915825151128700, 390380810425523096902200, 390390718796449909486600, 390441081230543207123000, 390461081230543207123000,
  390801025268964413580800, 391181025268964413580800, 391310853503814706147600, 391340853503814706147600, 391350883130396320464900,
  391460963365043572958500, 391661058916188075702200, 391781219859979319112100, 391920971369314340312200, 392081058916188075702200,
  392740963365043572958500, 392801058916188075702200, 393021058916188075702200, 393181000137521585490300, 393210955954246357586300,
  393400830677949508049500, 393470963365043572958500, 393760867223926857496000, 394381109998750452301200, 395110897972396832292200,
  395320830677949508049500, 395360963365043572958500, 395470867223926857496000, 395640897972396832292200, 395691109998750452301200,
  395921081230543207123000, 396360718796449909486600, 396400618244263349276850, 397910701121398735036700, 398540748010092189602700,
  400650701121398735036700, 400920748010092189602700, 402851219859979319112100, 403721219859979319112100, 404811150545261263117600,
  405171219859979319112100, 405481219859979319112100, 405721081230543207123000, 405950925416081402468100, 406130902054596284317600,
  406140902054596284317600, 406350915407735546769900, 406430980070452039275000, 406440980070452039275000, 406540790814035204273100,
  406571011915825151128700, 406700853503814706147600, 406800614181577996249750, 407780980070452039275000, 407840980070452039275000,
  408011011915825151128700, 408361011915825151128700, 408450870209223172464200, 408481150545261263117600, 408570870209223172464200]

def emitM32_0 : List Nat := [
  199680451347896425166200, 199690598835720633567400, 199710674844386957072800, 199750741128570063534500, 199770527034195919771400,
  199781051736603135820000, 199791161597832002631000, 199810770395531459816400, 199820872560656213014600, 199851092283113946636600,
  199900371571228325860940, 199920967006817097099800, 199930762699427346203600, 199940625000230500445900, 199960641197163294951500,
  199970931339322703226500, 200041022968395890642000, 200050800506040738208600, 200071161597832002631000, 200101022968395890642000,
  200130634297876146256400, 200160967006817097099800, 200200760864513479383900, 200250583832599680365400, 200270469530681577762700,
  200290931339322703226500, 200300982421885079825500, 200410671813852007539900, 200430739647061485020350, 200471022968395890642000,
  200480593580571100924300, 200520848048410409716000, 200570602872966162606100, 200610713864150554810400, 200641000654040759221000,
  200650800506040738208600, 200700677969641307483250, 200801161597832002631000, 200811161597832002631000, 200831161597832002631000,
  200981161597832002631000, 201070544011104992054900, 201080414518454583124800, 201130797839216029992500, 201160785477820433274800,
  201170785477820433274800, 201220591553474663562400, 201260591553474663562400, 201290776583071831625200, 201320600650652484135100,
  201330548258027702966200, 201350690644811871397700, 201400639562249494798500, 201421000654040759221000, 201540548910913591212500,
  201600811947075855983000, 201610808961779541014900, 201660818199111554116400, 201711051736603135820000, 201800762699427346203600,
  201820967006817097099800, 201850857145588230288700, 201950486137422053834800, 202041051736603135820000, 202100921808304722794000,
  202141022968395890642000, 202150967006817097099800, 202250742632357799988400, 202340682848657724426500, 202400666015126242505000,
  202470631766095347827300, 202500576377584025183600, 202560931339322703226500, 202600890792811892410000, 202620797839216029992500,
  202710565755362699652850, 202781161597832002631000, 202850967006817097099800, 203011000654040759221000, 203070848048410409716000,
  203080953653677834647500, 203091092283113946636600, 203111092283113946636600, 203130905102896256477300, 203150719713771222971200,
  203160913107167023831000, 203320785477820433274800, 203361161597832002631000, 203580725926949333671900, 203810768415268730198400,
  203840953653677834647500, 203871051736603135820000, 203900897692099041105300, 204051092283113946636600, 204061051736603135820000,
  204450967006817097099800, 204480953653677834647500, 204490716163102377280300, 204620774477730911842000, 204651161597832002631000,
  204911022968395890642000, 204931000654040759221000, 204971051736603135820000, 204981092283113946636600, 205051051736603135820000,
  205230797839216029992500, 205400941875374269009100, 205421161597832002631000, 205591161597832002631000, 205810780931583025599100,
  205970897692099041105300, 205981022968395890642000, 206070931339322703226500, 206251092283113946636600, 206330941875374269009100,
  206481161597832002631000, 206590931339322703226500, 206630890792811892410000, 206701161597832002631000, 206870890792811892410000,
  206930818199111554116400, 207230811947075855983000, 207290967006817097099800, 207670931339322703226500, 207861161597832002631000,
  207990733931220101025500, 208030806063025853689700, 208060905102896256477300, 208090639562249494798500, 208110494902152759710400,
  208180733931220101025500, 208260772415802191568400, 208370848048410409716000, 208390631267341196723500, 208400647431476352365000,
  208411022968395890642000, 208430676394805610669400, 208440657255320310706400, 208450913107167023831000, 208480427709018618743100,
  208490636895424786582400, 208510832014145402198000, 208520921808304722794000, 208530711616864969604550, 208540824868249003983700,
  208550862024604647232000, 208560768415268730198400, 208590774477730911842000, 208690631267341196723500, 208771092283113946636600,
  208891092283113946636600, 208910921808304722794000, 208920695253922591424400, 208960982421885079825500, 209081161597832002631000,
  209140913107167023831000, 209151092283113946636600, 209190815024241722658400, 209231161597832002631000, 209280770395531459816400,
  209340642302146913610000, 209401092283113946636600, 209411161597832002631000, 209431161597832002631000, 209571051736603135820000,
  209640905102896256477300, 209760732551887887791950, 209840848048410409716000, 209860905102896256477300, 209921000654040759221000,
  209980872560656213014600, 209991000654040759221000, 210021161597832002631000, 210090982421885079825500, 210101161597832002631000,
  210151161597832002631000, 210190762699427346203600, 210210824868249003983700, 210281092283113946636600, 210290744159105013067400,
  210330538353030347578800, 210350744159105013067400, 210401000654040759221000, 210460744159105013067400, 210471161597832002631000,
  210480913107167023831000, 210491051736603135820000, 210501161597832002631000, 210661051736603135820000, 210690878276497597009400,
  210701051736603135820000, 210951051736603135820000, 210981022968395890642000, 211061161597832002631000, 211090762699427346203600,
  211231161597832002631000, 211271051736603135820000, 211470670332343429025800, 211520731191322682214000, 211530839710249515811000,
  211600570247531438804100, 211611051736603135820000, 211710982421885079825500, 212020790240625332200250, 212050570247531438804100,
  212090839710249515811000, 212130921808304722794000, 212140982421885079825500, 212201051736603135820000, 212430967006817097099800,
  212480967006817097099800, 212530921808304722794000, 212700448029097299816700, 212710795241667389666400, 212950670332343429025800,
  213050591219584537011000, 213060941875374269009100, 213070673317639743994000, 213120941875374269009100, 213130717332706353599400,
  213150815024241722658400, 213170776583071831625200, 213191092283113946636600, 213200613951476809479950, 213260610658998339833300,
  213270617789901110311500, 213291022968395890642000, 213320617789901110311500, 213340953653677834647500, 213350556860614098003200,
  213380862024604647232000, 213440953653677834647500, 213450679569675442127300, 213460941875374269009100, 213480905102896256477300,
  213550648017988297604800, 213600878276497597009400, 213640931339322703226500, 213710931339322703226500, 213781092283113946636600,
  213810857145588230288700, 213821161597832002631000, 213870815024241722658400, 214070953653677834647500, 214100724653046755928900,
  214130760864513479383900, 214140808961779541014900, 214480941875374269009100, 214500790240625332200250, 214510797839216029992500,
  214521092283113946636600, 214530821478093836415500, 214570560226316398350800, 214621092283113946636600, 214630913107167023831000,
  214640755553530947989100, 214720759062662929116100, 214750766473460144488300, 214760525467584245331500, 214870808961779541014900,
  214880774477730911842000, 214901161597832002631000, 214940839710249515811000, 214951022968395890642000, 214960839710249515811000,
  215120622235077367394850, 215130672562919180455700, 215160806063025853689700, 215181022968395890642000, 215210941875374269009100,
  215310862024604647232000, 215370931339322703226500, 215550852493586666799500, 215560852493586666799500, 215660562201689271974100,
  215780848048410409716000, 215791161597832002631000, 216190759062662929116100, 216290573265593153803200, 216440583832599680365400,
  216721161597832002631000, 216741051736603135820000, 216831161597832002631000, 216970890792811892410000, 217040680379396465389250,
  217081022968395890642000, 217331051736603135820000, 217371022968395890642000, 217460843792448967836400, 217760620880654856619200,
  217770982421885079825500, 218061092283113946636600, 218091161597832002631000, 218300589895061862008900, 218571051736603135820000,
  218621000654040759221000, 218781161597832002631000, 218881161597832002631000, 218911022968395890642000, 218971051736603135820000,
  219161161597832002631000, 219301161597832002631000, 219320848048410409716000, 219371022968395890642000, 219710897692099041105300,
  220250862024604647232000, 220281161597832002631000, 221201092283113946636600, 221220811947075855983000, 221341022968395890642000,
  221960800506040738208600, 222350588913057243911400, 222401161597832002631000, 222420671813852007539900, 222530941875374269009100,
  222660832014145402198000, 222690413273390395246000, 222700774477730911842000, 222830413273390395246000, 222900941875374269009100,
  222940774477730911842000, 222960671813852007539900, 223030795241667389666400, 223121092283113946636600, 223200578409584274279350,
  223300897692099041105300, 223430815024241722658400, 223461161597832002631000, 223511092283113946636600, 223590890792811892410000,
  223630941875374269009100, 223740778733692353721500, 224110897692099041105300, 224181161597832002631000, 224670953653677834647500,
  224780768415268730198400, 224841092283113946636600, 225210905102896256477300, 225220544219221612437400, 225301092283113946636600,
  225610872560656213014600, 225701051736603135820000, 225770982421885079825500, 225800897692099041105300, 226020890792811892410000,
  226090691549795423389400, 226120701080813403821900, 226160913107167023831000, 226220787830870174294250, 226451022968395890642000,
  227211161597832002631000, 227270941875374269009100, 227390815024241722658400, 227411092283113946636600, 227441161597832002631000,
  227501092283113946636600, 227561022968395890642000, 227630522573765296096050, 227680941875374269009100, 227881092283113946636600,
  227910941875374269009100, 227970857145588230288700, 227990704126734152292800, 228060797839216029992500, 228100713864150554810400,
  228181051736603135820000, 228230324635749307720900, 228250576377584025183600, 228260583523480423398100, 228270528625741450361450,
  228360835788178200482800, 228550818199111554116400, 228591051736603135820000, 228700953653677834647500, 228850785477820433274800,
  228870785477820433274800, 228941051736603135820000, 228991161597832002631000, 229091022968395890642000, 229181092283113946636600,
  229190792709886591237400, 229411092283113946636600, 229490982421885079825500, 229820709418974297727000, 229961092283113946636600,
  230351092283113946636600, 230411000654040759221000, 231101022968395890642000, 231301092283113946636600, 231420792709886591237400,
  231561161597832002631000, 233441161597832002631000, 233760654707411780607900, 233801161597832002631000, 233811161597832002631000,
  233830818199111554116400, 233840953653677834647500, 233860890792811892410000, 233880697158742088493800, 233940852493586666799500]

def emitM32_1 : List Nat := [
  233980525467584245331500, 234010713864150554810400, 234160525467584245331500, 234250764568640647418900, 234310884338959778653000,
  234330579293242454329200, 234390890792811892410000, 234480982421885079825500, 234491000654040759221000, 234500800506040738208600,
  234510921808304722794000, 234530790240625332200250, 234540663237169831797400, 234581000654040759221000, 234590867153934085987000,
  234660720925907276205700, 234750848048410409716000, 234780575519209656044500, 234801051736603135820000, 234811161597832002631000,
  234860897692099041105300, 234941000654040759221000, 235000872560656213014600, 235061161597832002631000, 235190890792811892410000,
  235260663237169831797400, 235270764568640647418900, 235281092283113946636600, 235311092283113946636600, 235420790240625332200250,
  235451022968395890642000, 235481000654040759221000, 235531161597832002631000, 235560741128570063534500, 235651022968395890642000,
  235661000654040759221000, 235671161597832002631000, 235720420321430259974800, 235731161597832002631000, 235761022968395890642000,
  235780862024604647232000, 236081092283113946636600, 236101051736603135820000, 236120552693344457946440, 236150772415802191568400,
  236210795241667389666400, 236220690644811871397700, 236251092283113946636600, 236260690644811871397700, 236291092283113946636600,
  236370905102896256477300, 236441092283113946636600, 236460657902571761268100, 236480897692099041105300, 236600657902571761268100,
  236650497349151865905450, 237070921808304722794000, 237250776583071831625200, 237770696201796986878700, 237920941875374269009100,
  237980921808304722794000, 238050696201796986878700, 238540921808304722794000, 239131022968395890642000, 239940776583071831625200,
  240290752163375780421000, 240300620880654856619200, 240330848048410409716000, 240370661203201408085100, 240401022968395890642000,
  240490780931583025599100, 240501161597832002631000, 240520635848294799852900, 240660744159105013067400, 240671161597832002631000,
  240720778733692353721500, 240760620880654856619200, 240850808961779541014900, 240930776583071831625200, 241021092283113946636600,
  241070778733692353721500, 241181092283113946636600, 241200913107167023831000, 241781092283113946636600, 241790597407124908819700,
  241800832014145402198000, 241851092283113946636600, 241871161597832002631000, 241910626412018655024400, 241961000654040759221000,
  241980657902571761268100, 241991161597832002631000, 242021022968395890642000, 242071161597832002631000, 242111092283113946636600,
  242121051736603135820000, 242130921808304722794000, 242151051736603135820000, 242181051736603135820000, 242201092283113946636600,
  242300563456410877183000, 242310884338959778653000, 242351092283113946636600, 242470764568640647418900, 242580724653046755928900,
  242640808961779541014900, 242881092283113946636600, 242910626412018655024400, 243070857145588230288700, 243140648017988297604800,
  243200739647061485020350, 243221092283113946636600, 243351022968395890642000, 243410725926949333671900, 243431161597832002631000,
  243521092283113946636600, 243590953653677834647500, 243691092283113946636600, 243731092283113946636600, 243750884338959778653000,
  243770897692099041105300, 243780884338959778653000, 243920897692099041105300, 244030760864513479383900, 244050931339322703226500,
  244181092283113946636600, 244211022968395890642000, 244221022968395890642000, 244251161597832002631000, 244331092283113946636600,
  244440931339322703226500, 244491051736603135820000, 244531022968395890642000, 244591161597832002631000, 244601022968395890642000,
  244710953653677834647500, 244811161597832002631000, 244940884338959778653000, 245011051736603135820000, 245030680379396465389250,
  245150953653677834647500, 245170795241667389666400, 245181161597832002631000, 245350795241667389666400, 245650852493586666799500,
  245761161597832002631000, 245771092283113946636600, 246050905102896256477300, 246131092283113946636600, 246150867153934085987000,
  246350808961779541014900, 246460681195727529305400, 246510843792448967836400, 246580681195727529305400, 246800835788178200482800,
  246850843792448967836400, 246870673317639743994000, 247730921808304722794000, 248470760864513479383900, 248591092283113946636600,
  248631092283113946636600, 249040953653677834647500, 249071092283113946636600, 249171022968395890642000, 249500657902571761268100,
  250100720925907276205700, 250141161597832002631000, 250331051736603135820000, 250791161597832002631000, 250880843792448967836400,
  250960752163375780421000, 250980857145588230288700, 251000832014145402198000, 251031161597832002631000, 251040520744952896681200,
  251120337059385190556400, 251301000654040759221000, 251360337059385190556400, 251381161597832002631000, 251420857145588230288700,
  251430857145588230288700, 251511022968395890642000, 251630526683932864651300, 251711092283113946636600, 251760687977987163181500,
  251951022968395890642000, 252000862024604647232000, 252061161597832002631000, 252151161597832002631000, 252160890792811892410000,
  252261092283113946636600, 252331022968395890642000, 252370772415802191568400, 252391161597832002631000, 252520913107167023831000,
  252530982421885079825500, 252860884338959778653000, 252890517503177939338950, 252921092283113946636600, 253040931339322703226500,
  253071161597832002631000, 253081092283113946636600, 253110941875374269009100, 253240941875374269009100, 253430732551887887791950,
  253460967006817097099800, 253510612704059386962400, 253731000654040759221000, 253811092283113946636600, 253910832014145402198000,
  254051161597832002631000, 254420815024241722658400, 254751022968395890642000, 254961092283113946636600, 254990967006817097099800,
  255050921808304722794000, 255090808961779541014900, 255110747284359363477800, 255120832014145402198000, 255130890792811892410000,
  255521161597832002631000, 255630815024241722658400, 255821092283113946636600, 255880832014145402198000, 255971092283113946636600,
  256150897692099041105300, 256701051736603135820000, 257050778733692353721500, 257200905102896256477300, 257441022968395890642000,
  257451022968395890642000, 257731161597832002631000, 257901000654040759221000, 257921161597832002631000, 258360941875374269009100,
  258501051736603135820000, 258540862024604647232000, 259001092283113946636600, 259100835788178200482800, 259130857145588230288700,
  259180550895543228405600, 259190702085846989172100, 259280921808304722794000, 259321000654040759221000, 259351161597832002631000,
  259370752163375780421000, 259450982421885079825500, 259551022968395890642000, 259681022968395890642000, 259721000654040759221000,
  259731000654040759221000, 259761022968395890642000, 259910585078721724146600, 259950815024241722658400, 260011092283113946636600,
  260070698124933179667500, 260090982421885079825500, 260170806063025853689700, 260310332167871116907550, 260320539937221894144600,
  260410606301873510469300, 260451051736603135820000, 260530811947075855983000, 260630687104619166306000, 260710884338959778653000,
  260800752163375780421000, 260850407482586489000200, 260891051736603135820000, 261020630771062262510500, 261140867153934085987000,
  261180783178868610804900, 261240686238812891994600, 261260727217289817262600, 261310699100550674204000, 261430884338959778653000,
  261490785477820433274800, 261780630771062262510500, 261941092283113946636600, 261981051736603135820000, 262020921808304722794000,
  262160701080813403821900, 262220626887078930884200, 262230790240625332200250, 262300815024241722658400, 262491051736603135820000,
  262620759062662929116100, 263481092283113946636600, 263540795241667389666400, 263560848048410409716000, 263600677969641307483250,
  263640843792448967836400, 263670941875374269009100, 263710576377584025183600, 263760597407124908819700, 263770905102896256477300,
  263810953653677834647500, 263910717332706353599400, 263951092283113946636600, 263970832014145402198000, 263990878276497597009400,
  264080818199111554116400, 264120748884393498121900, 264151000654040759221000, 264260613118138653565600, 264320862024604647232000,
  264350729849020649000000, 264480778733692353721500, 264491161597832002631000, 264600780931583025599100, 264650872560656213014600,
  264690725926949333671900, 264720941875374269009100, 264770595301783989036400, 264791051736603135820000, 264801092283113946636600,
  264810641197163294951500, 264941051736603135820000, 264950913107167023831000, 264971000654040759221000, 265001092283113946636600,
  265120941875374269009100, 265190504090247942669000, 265240913107167023831000, 265300905102896256477300, 265501051736603135820000,
  265790890792811892410000, 265801092283113946636600, 265970905102896256477300, 266070884338959778653000, 266111000654040759221000,
  266410982421885079825500, 266571161597832002631000, 266790982421885079825500, 266801161597832002631000, 266810581992056926093900,
  266840598118871685706000, 266900890792811892410000, 266910931339322703226500, 266941161597832002631000, 267051161597832002631000,
  267250783178868610804900, 267530967006817097099800, 267570913107167023831000, 267810872560656213014600, 267901051736603135820000,
  267920905102896256477300, 267990742632357799988400, 268000913107167023831000, 268161161597832002631000, 268250982421885079825500,
  268340931339322703226500, 268370857145588230288700, 268621092283113946636600, 268651092283113946636600, 269280867153934085987000,
  269371161597832002631000, 269540941875374269009100, 269890625000230500445900, 269971000654040759221000, 270040637423130496666800,
  270160967006817097099800, 270481000654040759221000, 270831092283113946636600, 271380593580571100924300, 271550637423130496666800,
  271660905102896256477300, 271671092283113946636600, 271710982421885079825500, 271930982421885079825500, 272110783178868610804900,
  272251092283113946636600, 272310613118138653565600, 272600967006817097099800, 272981161597832002631000, 273081022968395890642000,
  273540967006817097099800, 273580967006817097099800, 274020729849020649000000, 274250379795038149558150, 274261161597832002631000,
  274540815024241722658400, 274891161597832002631000, 274910618225631647207050, 274930745709523666663900, 275111161597832002631000,
  275150921808304722794000, 275301161597832002631000, 275310931339322703226500, 275420953653677834647500, 275440931339322703226500,
  275780862024604647232000, 275831092283113946636600, 275841161597832002631000, 275851161597832002631000, 275970967006817097099800,
  276020862024604647232000, 276040787830870174294250, 276070982421885079825500, 276110897692099041105300, 276630839710249515811000]

def emitM32_2 : List Nat := [
  276650458689075587664900, 276680835788178200482800, 276790770395531459816400, 276820757292705219176000, 276830835788178200482800,
  276870627364406806149950, 276880776583071831625200, 276910757292705219176000, 276941161597832002631000, 276950694314948556440500,
  276960705163012855847400, 277000598476653820494500, 277121161597832002631000, 277190670332343429025800, 277210671070354158788100,
  277430572710036169342900, 277440931339322703226500, 277451051736603135820000, 277701092283113946636600, 277730897692099041105300,
  277740800506040738208600, 277791092283113946636600, 277840778733692353721500, 278010931339322703226500, 278070839710249515811000,
  278180715007020137172700, 278190941875374269009100, 278270797839216029992500, 278330839710249515811000, 278350608654923251488700,
  278391161597832002631000, 278490982421885079825500, 278500828377380985110700, 278520921808304722794000, 278610666015126242505000,
  278730913107167023831000, 278740739647061485020350, 278771092283113946636600, 278800723395168535242800, 278880707268353775630700,
  278911092283113946636600, 279011161597832002631000, 279050890792811892410000, 279150668872463486910500, 279271161597832002631000,
  279310674844386957072800, 279410747284359363477800, 279460867153934085987000, 279540744159105013067400, 279690843792448967836400,
  279791000654040759221000, 279820597053142238307300, 279860710511881350946100, 280060716163102377280300, 280100792709886591237400,
  280140878276497597009400, 280200811947075855983000, 280230551565936800624600, 280681092283113946636600, 280700828377380985110700,
  280791000654040759221000, 280821051736603135820000, 281031092283113946636600, 281071161597832002631000, 281200982421885079825500,
  281360770395531459816400, 281390953653677834647500, 281421092283113946636600, 281450748884393498121900, 281510832014145402198000,
  281650872560656213014600, 281801022968395890642000, 281831051736603135820000, 281871161597832002631000, 281890811947075855983000,
  281930843792448967836400, 282010821478093836415500, 282041000654040759221000, 282070690644811871397700, 282160890792811892410000,
  282460719713771222971200, 282480982421885079825500, 282860669599739419818500, 282870953653677834647500, 283040659209779918003400,
  283100642302146913610000, 283170839710249515811000, 283300795241667389666400, 283310821478093836415500, 283351092283113946636600,
  283400967006817097099800, 283420815024241722658400, 283641092283113946636600, 283690913107167023831000, 283730905102896256477300,
  283850913107167023831000, 283880843792448967836400, 283920890792811892410000, 283931000654040759221000, 283960715007020137172700,
  284021051736603135820000, 284041000654040759221000, 284080710511881350946100, 284150913107167023831000, 284171022968395890642000,
  284221051736603135820000, 284360671813852007539900, 284500671070354158788100, 284591000654040759221000, 284651161597832002631000,
  285000890792811892410000, 285041161597832002631000, 285070848048410409716000, 285080848048410409716000, 285160828377380985110700,
  285250878276497597009400, 285260824868249003983700, 285771000654040759221000, 285801161597832002631000, 286081000654040759221000,
  286290953653677834647500, 286390597053142238307300, 286570890792811892410000, 286700843792448967836400, 287481161597832002631000,
  287601000654040759221000, 287710669599739419818500, 287790739647061485020350, 287830872560656213014600, 287840839710249515811000,
  287891051736603135820000, 288201092283113946636600, 288440739647061485020350, 288451161597832002631000, 288571092283113946636600,
  288600941875374269009100, 288950941875374269009100, 289090760864513479383900, 289110699100550674204000, 289190921808304722794000,
  289610752163375780421000, 289820739647061485020350, 290010941875374269009100, 290170941875374269009100, 290280738187181542905100,
  290310872560656213014600, 290381161597832002631000, 290661022968395890642000, 290871161597832002631000, 291050760864513479383900,
  291230913107167023831000, 291280872560656213014600, 291570824868249003983700, 291900766473460144488300, 292261051736603135820000,
  292331092283113946636600, 292381092283113946636600, 292460420321430259974800, 292550568108412440672250, 292730631267341196723500,
  292750770395531459816400, 292870852493586666799500, 292890657255320310706400, 292981161597832002631000, 293050554755273178220000,
  293660967006817097099800, 293760967006817097099800, 293801051736603135820000, 293991161597832002631000, 294220982421885079825500,
  294680857145588230288700, 294820967006817097099800, 295090982421885079825500, 295180953653677834647500, 295540941875374269009100,
  295750953653677834647500, 295771161597832002631000, 295790839710249515811000, 295950941875374269009100, 296090872560656213014600,
  296150731191322682214000, 296161051736603135820000, 296270905102896256477300, 296420862024604647232000, 296640718516152118299700,
  296770661876604626219500, 296941051736603135820000, 296990778733692353721500, 297020598118871685706000, 297470897692099041105300,
  297560528269869188662000, 297810941875374269009100, 297900752163375780421000, 298020941875374269009100, 298270772415802191568400,
  298720731191322682214000, 298980528269869188662000, 299160953653677834647500, 299260757292705219176000, 299420921808304722794000,
  299760897692099041105300, 299830596348913975766000, 299860690644811871397700, 299920778733692353721500, 299951092283113946636600,
  300000691549795423389400, 300010967006817097099800, 300020632267349530181800, 300031051736603135820000, 300050484175443366869600,
  300070982421885079825500, 300081000654040759221000, 300141051736603135820000, 300280385551129081288970, 300641092283113946636600,
  300700760864513479383900, 300860890792811892410000, 300900759062662929116100, 301031161597832002631000, 301261051736603135820000,
  301421092283113946636600, 301511161597832002631000, 301711092283113946636600, 301871161597832002631000, 302411051736603135820000,
  302741161597832002631000, 302791161597832002631000, 303320560226316398350800, 303330905102896256477300, 303340698124933179667500,
  303400941875374269009100, 303820953653677834647500, 304081161597832002631000, 304100921808304722794000, 304170905102896256477300,
  304231051736603135820000, 304241051736603135820000, 304270806063025853689700, 304281051736603135820000, 304310790240625332200250,
  304350905102896256477300, 304361051736603135820000, 304390941875374269009100, 304421161597832002631000, 304561051736603135820000,
  304620768415268730198400, 304651161597832002631000, 304950731191322682214000, 304961161597832002631000, 305240800506040738208600,
  305260631766095347827300, 305280905102896256477300, 305630432432211085185000, 305661161597832002631000, 305901161597832002631000,
  306970862024604647232000, 307010982421885079825500, 307070780931583025599100, 307170828377380985110700, 307181161597832002631000,
  307211092283113946636600, 307221022968395890642000, 307400905102896256477300, 307890828377380985110700, 308130878276497597009400,
  308270741128570063534500, 308441092283113946636600, 308611092283113946636600, 308621000654040759221000, 308711000654040759221000,
  308721161597832002631000, 308970828377380985110700, 308991000654040759221000, 309081092283113946636600, 309101161597832002631000,
  309520867153934085987000, 309670931339322703226500, 309701092283113946636600, 310011092283113946636600, 310201161597832002631000,
  310340848048410409716000, 310381051736603135820000, 310621161597832002631000, 310680778733692353721500, 310700806063025853689700,
  310770872560656213014600, 311050913107167023831000, 311191092283113946636600, 311421161597832002631000, 311621161597832002631000,
  311630745709523666663900, 311651022968395890642000, 311791092283113946636600, 311811092283113946636600, 311850523925137212768400,
  311991161597832002631000, 312060675616591566463850, 312091161597832002631000, 312270982421885079825500, 312321161597832002631000,
  312370824868249003983700, 312430835788178200482800, 312460824868249003983700, 312640884338959778653000, 312781092283113946636600,
  312911000654040759221000, 312930967006817097099800, 313020905102896256477300, 313540872560656213014600, 313770872560656213014600,
  313890857145588230288700, 314010857145588230288700, 314070872560656213014600, 314350941875374269009100, 314610967006817097099800,
  314811000654040759221000, 314871022968395890642000, 315080770395531459816400, 315320731191322682214000, 315580770395531459816400,
  315610897692099041105300, 315630931339322703226500, 315700967006817097099800, 315741000654040759221000, 316141022968395890642000,
  316391092283113946636600, 316490821478093836415500, 316611022968395890642000, 316800967006817097099800, 317261092283113946636600,
  317860967006817097099800, 318051022968395890642000, 318111092283113946636600, 318210967006817097099800, 318590613951476809479950,
  318671092283113946636600, 318810872560656213014600, 318900772415802191568400, 318960982421885079825500, 319080872560656213014600,
  319181000654040759221000, 319211051736603135820000, 319250872560656213014600, 319340795241667389666400, 319580803245938157020000,
  319680905102896256477300, 319751000654040759221000, 319950828377380985110700, 320000702085846989172100, 320040967006817097099800,
  320050713864150554810400, 320091161597832002631000, 320111161597832002631000, 320130843792448967836400, 320160818199111554116400,
  320250724653046755928900, 320260941875374269009100, 320321051736603135820000, 320330672562919180455700, 320340867153934085987000,
  320390867153934085987000, 320480913107167023831000, 320681161597832002631000, 320800755553530947989100, 320971000654040759221000,
  321130691549795423389400, 321140931339322703226500, 321470571061647197174000, 321561161597832002631000, 321600941875374269009100,
  321730637423130496666800, 321780982421885079825500, 321841161597832002631000, 321911161597832002631000, 322020867153934085987000,
  322180913107167023831000, 322271051736603135820000, 322321000654040759221000, 322990913107167023831000, 323020967006817097099800,
  323051092283113946636600, 323170808961779541014900, 323400747284359363477800, 323501051736603135820000, 323531161597832002631000,
  323621161597832002631000, 323800839710249515811000, 323960832014145402198000, 324060921808304722794000, 324180713864150554810400,
  324200921808304722794000, 324220967006817097099800, 324230941875374269009100, 324260702085846989172100, 324271161597832002631000,
  324350843792448967836400, 324371092283113946636600, 324381161597832002631000, 324400724653046755928900, 324411161597832002631000]

def emitM32_3 : List Nat := [
  324420672562919180455700, 324450818199111554116400, 324470913107167023831000, 324521161597832002631000, 324540913107167023831000,
  324550747284359363477800, 324630571061647197174000, 324670755553530947989100, 324691051736603135820000, 324721161597832002631000,
  324761000654040759221000, 324790691549795423389400, 324831161597832002631000, 324870839710249515811000, 324930832014145402198000,
  325000637423130496666800, 325011161597832002631000, 325081161597832002631000, 325110941875374269009100, 325341000654040759221000,
  325361051736603135820000, 325410913107167023831000, 325530967006817097099800, 325701022968395890642000, 325930982421885079825500,
  325990620880654856619200, 326100835788178200482800, 326220878276497597009400, 326310835788178200482800, 326450620880654856619200,
  326500953653677834647500, 326540690644811871397700, 326711161597832002631000, 326771161597832002631000, 326810671813852007539900,
  326871000654040759221000, 327091161597832002631000, 327221000654040759221000, 327241092283113946636600, 327520686238812891994600,
  327640982421885079825500, 327691051736603135820000, 327710832014145402198000, 328190731191322682214000, 328221092283113946636600,
  328520678766458272400900, 328580689747944873121600, 328620953653677834647500, 328790678766458272400900, 328820941875374269009100,
  329030921808304722794000, 329050818199111554116400, 329251161597832002631000, 329280941875374269009100, 329290431011828734230100,
  329320747284359363477800, 329330913107167023831000, 329431161597832002631000, 329461000654040759221000, 329600967006817097099800,
  329721022968395890642000, 329880921808304722794000, 330140931339322703226500, 330180921808304722794000, 330210655338328699934400,
  330320967006817097099800, 330330967006817097099800, 330390897692099041105300, 330411022968395890642000, 330671000654040759221000,
  330731000654040759221000, 330810967006817097099800, 330980629296834088790200, 331040729849020649000000, 331251092283113946636600,
  331261022968395890642000, 331440941875374269009100, 331451161597832002631000, 331511051736603135820000, 331671051736603135820000,
  331780747284359363477800, 331840931339322703226500, 332181051736603135820000, 332400629296834088790200, 332470897692099041105300,
  332560760864513479383900, 332580612291687668576200, 332671000654040759221000, 332870872560656213014600, 332880921808304722794000,
  332890982421885079825500, 332981092283113946636600, 333220770395531459816400, 333280839710249515811000, 333370878276497597009400,
  333820839710249515811000, 333900719713771222971200, 333910890792811892410000, 333940770395531459816400, 334020857145588230288700,
  334100967006817097099800, 334241092283113946636600, 334260941875374269009100, 334331051736603135820000, 334360967006817097099800,
  334370884338959778653000, 334460931339322703226500, 334551161597832002631000, 334570757292705219176000, 334591051736603135820000,
  334691000654040759221000, 334761092283113946636600, 334870808961779541014900, 335190713864150554810400, 335210818199111554116400,
  335271022968395890642000, 335291022968395890642000, 335380967006817097099800, 335400941875374269009100, 335410890792811892410000,
  335760718516152118299700, 335901000654040759221000, 336090808961779541014900, 336161051736603135820000, 336311092283113946636600,
  336320982421885079825500, 336331161597832002631000, 336470642302146913610000, 336550832014145402198000, 336741000654040759221000,
  336781000654040759221000, 336831161597832002631000, 337070852493586666799500, 337130671070354158788100, 337140982421885079825500,
  337190941875374269009100, 337350982421885079825500, 337380897692099041105300, 337400797839216029992500, 337481051736603135820000,
  337560953653677834647500, 337750610658998339833300, 337770628810215123672900, 337780931339322703226500, 337960748884393498121900,
  338020671070354158788100, 338161051736603135820000, 338320633277459128832200, 338360741128570063534500, 338650839710249515811000,
  338790905102896256477300, 338830913107167023831000, 338911051736603135820000, 338991092283113946636600, 339091161597832002631000,
  339220878276497597009400, 339451161597832002631000, 339531092283113946636600, 339701022968395890642000, 339760905102896256477300,
  340300982421885079825500, 340711051736603135820000, 340920967006817097099800, 341540967006817097099800, 341801092283113946636600,
  341841092283113946636600, 342141051736603135820000, 342170633277459128832200, 342340982421885079825500, 342550656612231277677300,
  342690857145588230288700, 342770642302146913610000, 342991092283113946636600, 343100931339322703226500, 343110808961779541014900,
  343151022968395890642000, 343490427709018618743100, 343821051736603135820000, 343830711616864969604550, 343891092283113946636600,
  343960711616864969604550, 343991022968395890642000, 344111022968395890642000, 344251161597832002631000, 344721000654040759221000,
  345071092283113946636600, 345230890792811892410000, 345880941875374269009100, 346310967006817097099800, 346900897692099041105300,
  347010635848294799852900, 348021022968395890642000, 348090967006817097099800, 348141161597832002631000, 348210967006817097099800,
  348800753844087612059100, 348920674078099682515800, 348930808961779541014900, 348991000654040759221000, 349030691549795423389400,
  349070648017988297604800, 349090913107167023831000, 349130913107167023831000, 349150921808304722794000, 349171161597832002631000,
  349200488257642818895100, 349281092283113946636600, 349890843792448967836400, 350130867153934085987000, 350290766473460144488300,
  350361161597832002631000, 350370867153934085987000, 350410707268353775630700, 351860843792448967836400, 351990586658533411805700,
  352110967006817097099800, 352151051736603135820000, 352220921808304722794000, 352611161597832002631000, 352641000654040759221000,
  352650967006817097099800, 352661000654040759221000, 352681051736603135820000, 352700921808304722794000, 352721161597832002631000,
  352820867153934085987000, 352990790240625332200250, 353020835788178200482800, 353200835788178200482800, 353281161597832002631000,
  353360717332706353599400, 353381092283113946636600, 353470857145588230288700, 353520609451740216406400, 353701051736603135820000,
  353771022968395890642000, 353800982421885079825500, 354080890792811892410000, 354261051736603135820000, 354300913107167023831000,
  354410897692099041105300, 354801022968395890642000, 354860967006817097099800, 355160897692099041105300, 355191000654040759221000,
  355270884338959778653000, 355311051736603135820000, 355420783178868610804900, 355481092283113946636600, 355591161597832002631000,
  355661161597832002631000, 355820739647061485020350, 356570656612231277677300, 356760931339322703226500, 357030913107167023831000,
  357121051736603135820000, 357220755553530947989100, 357310967006817097099800, 357450717332706353599400, 357530967006817097099800,
  357570857145588230288700, 357591092283113946636600, 357600609451740216406400, 357681022968395890642000, 357700783178868610804900,
  357751051736603135820000, 357770656612231277677300, 357840890792811892410000, 357850982421885079825500, 357970913107167023831000,
  358050897692099041105300, 358101051736603135820000, 358210967006817097099800, 358251022968395890642000, 358311051736603135820000,
  358340739647061485020350, 358351051736603135820000, 358431000654040759221000, 358480884338959778653000, 358500897692099041105300,
  358531092283113946636600, 358561161597832002631000, 358890931339322703226500, 358950811947075855983000, 359100707268353775630700,
  359161161597832002631000, 359200967006817097099800, 359371051736603135820000, 359480967006817097099800, 359970498134496216462400,
  360000982421885079825500, 360011161597832002631000, 360080941875374269009100, 360121022968395890642000, 360231161597832002631000,
  360271000654040759221000, 360310729849020649000000, 360390760864513479383900, 360510897692099041105300, 360621051736603135820000,
  360640878276497597009400, 360670953653677834647500, 360741051736603135820000, 360920694314948556440500, 360930709418974297727000,
  361061000654040759221000, 361230713864150554810400, 361250498134496216462400, 361270982421885079825500, 361301161597832002631000,
  361311022968395890642000, 361350941875374269009100, 361361051736603135820000, 361410694314948556440500, 361520729849020649000000,
  361531000654040759221000, 361640760864513479383900, 361751051736603135820000, 361800878276497597009400, 361870709418974297727000,
  361901000654040759221000, 361950713864150554810400, 361960953653677834647500, 362030818199111554116400, 362150617356060950451700,
  362910757292705219176000, 363051161597832002631000, 363170703101084135573800, 363350742632357799988400, 363391161597832002631000,
  363940931339322703226500, 364200931339322703226500, 364930757292705219176000, 365230967006817097099800, 365540867153934085987000,
  365550941875374269009100, 365570921808304722794000, 366000774477730911842000, 366111161597832002631000, 366171161597832002631000,
  366280792709886591237400, 366290931339322703226500, 366370862024604647232000, 366460884338959778653000, 366500803245938157020000,
  366640982421885079825500, 366670717332706353599400, 366810897692099041105300, 366851022968395890642000, 367100867153934085987000,
  367110941875374269009100, 367160897692099041105300, 367180803245938157020000, 367240774477730911842000, 367310931339322703226500,
  367331161597832002631000, 367391161597832002631000, 367410792709886591237400, 367430884338959778653000, 367450862024604647232000,
  367520717332706353599400, 367550982421885079825500, 367611022968395890642000, 367631092283113946636600, 367710890792811892410000,
  367851000654040759221000, 367860695253922591424400, 367930967006817097099800, 367980504229815306566500, 368051051736603135820000,
  368070967006817097099800, 368160431348189629898500, 368270795241667389666400, 368280913107167023831000, 368300768415268730198400,
  368420623148325723722200, 368451000654040759221000, 368651092283113946636600, 368671051736603135820000, 368731051736603135820000,
  368790867153934085987000, 368801092283113946636600, 368900848048410409716000, 368950731191322682214000, 368960967006817097099800,
  368990768415268730198400, 369140795241667389666400, 369230748884393498121900, 369380890792811892410000, 369390431348189629898500,
  369420967006817097099800, 369470982421885079825500, 369480504229815306566500, 369600913107167023831000, 369841051736603135820000,
  370020967006817097099800, 370070748884393498121900, 370270884338959778653000, 370301051736603135820000, 370380843792448967836400]

def emitM32_4 : List Nat := [
  370571022968395890642000, 371090843792448967836400, 371170712734195029417100, 371220839710249515811000, 371290800506040738208600,
  372021000654040759221000, 372101092283113946636600, 372281000654040759221000, 372300967006817097099800, 372311092283113946636600,
  372320712734195029417100, 372400551790403786007000, 372550803245938157020000, 372591022968395890642000, 372751022968395890642000,
  372761092283113946636600, 372910673317639743994000, 373190921808304722794000, 373240707268353775630700, 373250668872463486910500,
  373260982421885079825500, 373270818199111554116400, 373290529881363327902650, 373320953653677834647500, 373530931339322703226500,
  373851000654040759221000, 374400982421885079825500, 374671161597832002631000, 374850931339322703226500, 374961161597832002631000,
  374991092283113946636600, 375040862024604647232000, 375090724653046755928900, 375590941875374269009100, 375610982421885079825500,
  375690811947075855983000, 376101092283113946636600, 376280576953954496858600, 376360931339322703226500, 376561161597832002631000,
  376661092283113946636600, 376750884338959778653000, 377231000654040759221000, 377491161597832002631000, 377941161597832002631000,
  378060941875374269009100, 378321092283113946636600, 379381051736603135820000, 379410462388189261042300, 379950848048410409716000,
  380130872560656213014600, 380230953653677834647500, 380340931339322703226500, 380481000654040759221000, 380500576953954496858600,
  380561161597832002631000, 380651092283113946636600, 380750872560656213014600, 380770931339322703226500, 380780982421885079825500,
  380810462388189261042300, 380851161597832002631000, 381080724653046755928900, 381090811947075855983000, 381241092283113946636600,
  381281161597832002631000, 381340862024604647232000, 381381092283113946636600, 381421092283113946636600, 381440941875374269009100,
  381520982421885079825500, 381770884338959778653000, 381801161597832002631000, 381901161597832002631000, 382031000654040759221000,
  382150941875374269009100, 382551051736603135820000, 382630703101084135573800, 382710703101084135573800, 382720668872463486910500,
  382751161597832002631000, 382811092283113946636600, 382830739647061485020350, 382910716163102377280300, 383640832014145402198000,
  383760668872463486910500, 383781161597832002631000, 383811092283113946636600, 383880716163102377280300, 383950953653677834647500,
  384510580483732704961000, 384530862024604647232000, 384591051736603135820000, 384680872560656213014600, 384690646848384321285800,
  384700931339322703226500, 384721161597832002631000, 384771051736603135820000, 384801161597832002631000, 384990862024604647232000,
  385000848048410409716000, 385050835788178200482800, 385151161597832002631000, 385170795241667389666400, 385180867153934085987000,
  385200931339322703226500, 385250580483732704961000, 385340867153934085987000, 385550646848384321285800, 385561092283113946636600,
  385700835788178200482800, 385960852493586666799500, 385970755553530947989100, 385980705163012855847400, 386041161597832002631000,
  386171092283113946636600, 386220815024241722658400, 386260745709523666663900, 386320921808304722794000, 386420797839216029992500,
  386431161597832002631000, 386470878276497597009400, 386510484175443366869600, 386541051736603135820000, 386650913107167023831000,
  386840982421885079825500, 386860941875374269009100, 386951051736603135820000, 387060862024604647232000, 387120857145588230288700,
  387221161597832002631000, 387281051736603135820000, 387380931339322703226500, 387450982421885079825500, 387480982421885079825500,
  387500953653677834647500, 387540659869848321138600, 387610423074739695973700, 387721161597832002631000, 387951092283113946636600,
  388601022968395890642000, 388871022968395890642000, 388990967006817097099800, 389010921808304722794000, 389070921808304722794000,
  389170821478093836415500, 389181051736603135820000, 389201092283113946636600, 389310848048410409716000, 389350803245938157020000,
  389570835788178200482800, 389681051736603135820000, 389711000654040759221000, 389881161597832002631000, 390061092283113946636600,
  390330821478093836415500, 390341051736603135820000, 390351092283113946636600, 390390848048410409716000, 390470803245938157020000,
  390481051736603135820000, 390571000654040759221000, 390641161597832002631000, 390800684529369556064500, 391180684529369556064500,
  391350897692099041105300, 391650672562919180455700, 391661092283113946636600, 391731051736603135820000, 391780774477730911842000,
  391920905102896256477300, 392801092283113946636600, 392810672562919180455700, 392921051736603135820000, 393181022968395890642000,
  393210728524497973997900, 393400596348913975766000, 393451161597832002631000, 393471161597832002631000, 393870696201796986878700,
  393890982421885079825500, 394230867153934085987000, 394930857145588230288700, 395110941875374269009100, 395320596348913975766000,
  395341161597832002631000, 395361161597832002631000, 395370857145588230288700, 395420696201796986878700, 395480982421885079825500,
  395640941875374269009100, 395670867153934085987000, 395920835788178200482800, 396360848048410409716000, 396400556153897375694000,
  397170698124933179667500, 397291022968395890642000, 397461092283113946636600, 397700967006817097099800, 397910760864513479383900,
  398540611472010948158300, 400600967006817097099800, 400650760864513479383900, 400920611472010948158300, 401790905102896256477300,
  402010843792448967836400, 402510852493586666799500, 402550921808304722794000, 402731161597832002631000, 402850815024241722658400,
  404410921808304722794000, 404751022968395890642000, 404810815024241722658400, 404860843792448967836400, 405090921808304722794000,
  405110852493586666799500, 405151161597832002631000, 405170815024241722658400, 405600921808304722794000, 405631022968395890642000,
  405650905102896256477300, 405720828377380985110700, 405750764568640647418900, 405990931339322703226500, 406130808961779541014900,
  406140808961779541014900, 406351092283113946636600, 406430867153934085987000, 406440867153934085987000, 406541092283113946636600,
  406571092283113946636600, 406601022968395890642000, 406701092283113946636600, 406800772415802191568400, 406920913107167023831000,
  407181022968395890642000, 407631022968395890642000, 407790815024241722658400, 407860982421885079825500, 408310982421885079825500,
  408450649798450760955500, 408570649798450760955500]

def emitM33_0 : List Nat := [
  199690488700184476169700, 200500413978744293147600, 200510413978744293147600, 207990708422642209791600, 208180708422642209791600,
  209080598561413342980700, 211280459931977230991600, 214850547478850966381500, 214860444516909248265800, 215010323407882038785740,
  215530325558502560882120, 215680382612988407643400, 216170639107924153797050, 216280378838955609358700, 216530375202191192271200,
  216580386535059722971530, 216790394873220616876660, 216840708422642209791600, 216950399318396873960020, 217040224794451514643800,
  217140708422642209791600, 217190355786589748175470, 217350378838955609358700, 217990547478850966381500, 218620223219615817829900,
  218660265340962325460250, 218950569793206097802500, 219390265340962325460250, 220170344664026237153000, 220300431163769985813500,
  220470488700184476169700, 220570355786589748175470, 220640323407882038785740, 221080371693059211144200, 221120708422642209791600,
  221400344664026237153000, 221630488700184476169700, 221650371693059211144200, 244030403970398437449300, 252890569793206097802500,
  284040399318396873960020, 300700403970398437449300, 315720399318396873960020, 350410332302630640435400, 367030413978744293147600,
  367200413978744293147600, 373240332302630640435400, 378470547478850966381500, 378480547478850966381500, 381430547478850966381500,
  381970547478850966381500, 385340261831830344333260, 386460569793206097802500]

def emitM34_0 : List Nat := [
  200430254944517092557140, 205110008134563945395240]

def emitM35_0 : List Nat := [
  199680772208711054679400, 200610772208711054679400, 208430772208711054679400, 208440152462517095957260, 209980951384657977485000,
  213150155842149086217700, 214000463104465718847800, 227630951384657977485000, 235670662347482187868400, 235720552486253321057500,
  243350662347482187868400, 244940790440866734074800, 245030694889722231331200, 255970951384657977485000, 259000951384657977485000,
  260410062495191040325620, 266840841523429110673900, 276270646932414205142600, 276630694889722231331200, 277420731662200243862950,
  278610951384657977485000, 280230882069939921490400, 292460552486253321057500, 299260514439872730782700, 318590731662200243862950,
  335210585028493364520200, 350410841523429110673900, 363350550651339454237800, 373240841523429110673900]

def emitM38_0 : List Nat := [
  199680418423426076207100, 200100417922171893852700, 200400147083824004619610, 201600078706508192852030, 201820382154727466671050,
  202490430705509044841150, 202500239331266338864700, 203090289412986332779850, 204910417922171893852700, 214750707964381268819300,
  228210430705509044841150, 234780552629536690513600, 260890598103152402008300, 261020239583049938098820, 261780239583049938098820,
  263710239331266338864700, 288570699263243569856300, 353770809124472436667300, 357680809124472436667300, 382720592219102399715000,
  383760592219102399715000, 384530878439190492661800, 384990878439190492661800, 406360147083824004619610, 406700699263243569856300]

def emitM40_0 : List Nat := [
  201820000000000000000000]

def emitM42_0 : List Nat := [
  200130232926989075023360, 200430435365165524704200, 203020404827000569586000, 208390074337745038172330, 208690074337745038172330,
  210690483322473550892800, 212710394818654713887750, 213350453597321204099700, 215120578873618053636500, 215160809132127353041000,
  215180453597321204099700, 223200415949564080608400, 223590552637191606887300, 226020552637191606887300, 235060500027882017209450,
  235560648188336109631000, 236650699270898486230050, 237000545226394391515200, 242130293802967903263120, 244180545226394391515200,
  244600453597321204099700, 251520531873255129062900, 277430648188336109631000, 278490440244181941647400, 279690453597321204099700,
  280230279300390698237380, 303330578873618053636500, 313500531873255129062900, 330500403087826298399100, 331390403087826298399100,
  338530614541112447509700, 351990479548440752608100, 352820459481371206393000, 363350545226394391515200, 368070809132127353041000,
  368280251159144754418800, 368840699270898486230050, 369420809132127353041000, 369470809132127353041000, 369600251159144754418800,
  370660629956180430235500, 382720374751585167672640, 383760374751585167672640, 384520569342600073204000, 385120569342600073204000,
  385170809132127353041000, 390800648188336109631000, 391180648188336109631000]

def emitM43_0 : List Nat := [
  199680334129219795774550, 199770404411167316019800, 199780644416910896306400, 199790554710973901679700, 199810456871062085836200,
  199851018183872724643300, 199900335855260489074550, 199940857240081481233100, 200100442926608842079900, 200130857240081481233100,
  200370438274607278590600, 200480948869154668648700, 200610839007925801837700, 200640798461414991021300, 201080429296076891355100,
  201160532202632288476000, 201230475249309829199200, 201350908322643857832200, 201460740925000500665100, 201540651827708111678600,
  202390555686591396216100, 202410700378489689848700, 204910442926608842079900, 205510501135473220828050, 206330948869154668648700,
  207990466037780938418600, 208030190799179446192400, 208180466037780938418600, 208400879554436612654200, 208430810239718556659700,
  208910839007925801837700, 209080639764909332817100, 209120810239718556659700, 209230615648703651128300, 209340629001842913580600,
  209410615648703651128300, 210210560712774874305000, 210331018183872724643300, 210490516455889043150800, 210510498334169598060700,
  210690723739974807999200, 210700516455889043150800, 211060908322643857832200, 211531018183872724643300, 211600688600186124210400,
  211710948869154668648700, 212050688600186124210400, 212091018183872724643300, 212140948869154668648700, 212700615648703651128300,
  212710372664016390631000, 213200567097922072958200, 213220164249273118906160, 213260908322643857832200, 213650696296290237823200,
  213820857240081481233100, 214720479276699742993200, 214760562796183564589100, 214941018183872724643300, 215170908322643857832200,
  215180713731628952300900, 215780810239718556659700, 218300734862538319021700, 221200446810592173706300, 222350410190553215084200,
  222780908322643857832200, 222910908322643857832200, 223071018183872724643300, 223200908322643857832200, 224410810239718556659700,
  225380810239718556659700, 226590769693207745843200, 227910948869154668648700, 227970662649066575701900, 228050729146696935026700,
  228100501135473220828050, 228120637517623747611200, 228230490372406801591500, 228360908322643857832200, 228990857240081481233100,
  229140626981572181828600, 229190857240081481233100, 230720510666491201260500, 231420857240081481233100, 233810681454289725995800,
  233840761688936978489600, 233880879554436612654200, 234770547230852593409800, 235720754278139763117400, 240290823592857819112000,
  240720778394345444806200, 241070778394345444806200, 241800288882104747365040, 241980455062694542506650, 243140879554436612654200,
  244030778394345444806200, 244330948869154668648700, 244600713731628952300900, 246150787925363425238700, 246810563854394497642800,
  246870642063861155287000, 247730734862538319021700, 249500455062694542506650, 251030948869154668648700, 251060879554436612654200,
  251380948869154668648700, 252260787925363425238700, 253080651827708111678600, 259180467650719131406940, 259720671610282444670600,
  259950734862538319021700, 260320511924369421946600, 260850908322643857832200, 260860576299811944983450, 260970810239718556659700,
  261020404844068424978400, 261260538604818164969150, 261310654425256752004600, 261430709079627388811700, 261490517120343315017600,
  261780404844068424978400, 262020778394345444806200, 263760398132955320374250, 263770700378489689848700, 263990351361047882902900,
  264110501135473220828050, 265240857240081481233100, 265791018183872724643300, 266411018183872724643300, 267570908322643857832200,
  269890857240081481233100, 271380948869154668648700, 271931018183872724643300, 274911018183872724643300, 274940948869154668648700,
  275110857240081481233100, 276021018183872724643300, 276650908322643857832200, 277000534555682029495500, 278270908322643857832200,
  279630654425256752004600, 281650458712734764459400, 283100629001842913580600, 288450563854394497642800, 289820599218398522000700,
  292460754278139763117400, 292980754278139763117400, 295791018183872724643300, 296990948869154668648700, 299830434410828008049200,
  299860908322643857832200, 300410613878745941188250, 300700778394345444806200, 300900479276699742993200, 304060561749053577859600,
  304101018183872724643300, 304960734862538319021700, 305240526185780141830800, 306360704634451131728200, 307070451195780426591200,
  310360857240081481233100, 311051018183872724643300, 311500857240081481233100, 311790506384491482967700, 313190839007925801837700,
  314611018183872724643300, 320000342840080864865240, 320340948869154668648700, 321470713731628952300900, 324260342840080864865240,
  324630713731628952300900, 325990530664140404528100, 326450530664140404528100, 327220798461414991021300, 328541018183872724643300,
  329460688600186124210400, 337750908322643857832200, 338651018183872724643300, 348920704634451131728200, 350131018183872724643300,
  350371018183872724643300, 351090704634451131728200, 352420740925000500665100, 354261018183872724643300, 354770502854713274865350,
  358060502854713274865350, 358101018183872724643300, 360080908322643857832200, 361350908322643857832200, 362340908322643857832200,
  364240879554436612654200, 365570839007925801837700, 366490723739974807999200, 367440723739974807999200, 367840948869154668648700,
  370270446810592173706300, 370300754278139763117400, 372470823592857819112000, 372761018183872724643300, 373120823592857819112000,
  373290570450191276822600, 375090761688936978489600, 381080761688936978489600, 384510548135836145401600, 384530600745145735079500,
  384540444204581506719800, 384690879554436612654200, 384990600745145735079500, 385250548135836145401600, 385420444204581506719800,
  385550879554436612654200, 385980948869154668648700, 386700681454289725995800, 386840436770819542136600, 389310948869154668648700,
  389570908322643857832200, 390390948869154668648700, 407790734862538319021700]

def emitM45_0 : List Nat := [
  200100000000000000000000, 204910000000000000000000]

def emitM52_0 : List Nat := [
  199680630701480432340000, 199771101654500563573400, 199780404206609461068800, 199790472682943472673700, 199810159910916676694900,
  199900788105078970658500, 199940499067903181041900, 200041032339782507578900, 200100830849480453352400, 200110861864973283736400,
  200130837748767602047600, 200160963025064451584400, 200270647325022336573000, 200300991793271696762300, 200370845159564817419800,
  200410893710346395589800, 200430428314311379837500, 200480845159564817419800, 200810792550255227741800, 200980792550255227741800,
  201020737895884590934800, 201051101654500563573400, 201070627161287727248400, 201220599266448478945800, 201260599266448478945800,
  201320535358452549978800, 201350758255780115058800, 201540629804613434063900, 201600428791639255103300, 201740940710709320163300,
  201950720988251586541400, 202210871395991264168800, 202390802081273208174200, 202410706530128705430600, 202470695610199508931400,
  202480504528316584527100, 202491032339782507578900, 202501101654500563573400, 202841032339782507578900, 203030662209585096329500,
  203070641137481964764260, 203160645219681416789700, 203510963025064451584400, 203580622905326285368800, 204150797202256791231100,
  204390702756095907146000, 204620861864973283736400, 204910830849480453352400, 204981032339782507578900, 205400881932042829951400,
  205420468326537749604400, 205700583476145534364800, 205720560937323417561550, 206700468326537749604400, 207420940710709320163300,
  207780504528316584527100, 207990963025064451584400, 208030837748767602047600, 208050991793271696762300, 208090861864973283736400,
  208110881932042829951400, 208130963025064451584400, 208180963025064451584400, 208371101654500563573400, 208411032339782507578900,
  208440861864973283736400, 208510830849480453352400, 208530667273958378205000, 208540761534762397357850, 208551101654500563573400,
  208590818333166157951700, 208890991793271696762300, 208910922478553640767800, 209080963025064451584400, 209140991793271696762300,
  209150504783744565036850, 209190743302606717962360, 209340618026309868425550, 209860568382621237036500, 209920682689026360930800,
  209980758255780115058800, 210100837748767602047600, 210150681185238624476800, 210290614901055518015100, 210330294345380594257900,
  210350614901055518015100, 210460554008145370422300, 210480588664629071266000, 210500922478553640767800, 210690893710346395589800,
  210950761534762397357850, 211230837748767602047600, 211270761534762397357850, 211471101654500563573400, 211510631606463984331800,
  211520601933273187161900, 211600559159498815433100, 211610378598185222644200, 211700991793271696762300, 211850991793271696762300,
  211870991793271696762300, 211911101654500563573400, 212050559159498815433100, 213060907063485658042100, 213120907063485658042100,
  213131101654500563573400, 213220893710346395589800, 213330723235537171747300, 213340893710346395589800, 213510940710709320163300,
  213550963025064451584400, 213780752003744416925400, 213800991793271696762300, 214070779766918076753300, 214500963025064451584400,
  214530797202256791231100, 214570940710709320163300, 214630991793271696762300, 214640853163835584773400, 214750725534488994217150,
  214821101654500563573400, 214870727887538735236550, 214881032339782507578900, 214960871395991264168800, 215070963025064451584400,
  215120783849117528778800, 215160907063485658042100, 215180807210602646929400, 215311032339782507578900, 215420646266811403519400,
  215480893710346395589800, 215570692220044341363300, 215660720988251586541400, 216190289833795622995200, 216210907063485658042100,
  216280812617324773956900, 216290768434049546053000, 216760688941062059064300, 216970690567114146242300, 217020779766918076753300,
  217040772070813963140500, 217130963025064451584400, 217670963025064451584400, 218091101654500563573400, 218391101654500563573400,
  218540963025064451584400, 218920940710709320163300, 219120940710709320163300, 219160893710346395589800, 219340723235537171747300,
  219430679703730045962700, 219711101654500563573400, 219811032339782507578900, 220070797202256791231100, 220681101654500563573400,
  221200881932042829951400, 221320679703730045962700, 221990746119694414632000, 222400655063688698115100, 222420764924917564926000,
  222560853163835584773400, 222661032339782507578900, 222690740562709299151000, 222781101654500563573400, 222800700921182040326300,
  222830740562709299151000, 222911101654500563573400, 222960764924917564926000, 223030718790360914663900, 223070881932042829951400,
  223120541442618475603300, 223200647325022336573000, 223300418351327284953400, 223430649475642858669400, 224110611127022719730500,
  224750940710709320163300, 224950907063485658042100, 225220893710346395589800, 225340845159564817419800, 225800418351327284953400,
  226220963025064451584400, 226590788105078970658500, 227661101654500563573400, 227671101654500563573400, 227880601933273187161900,
  227970812617324773956900, 228060662209585096329500, 228211032339782507578900, 228230551937678034253200, 228250608929132047852900,
  228260652790863590359400, 228330579618918055740900, 228360723235537171747300, 228711101654500563573400, 228991032339782507578900,
  229091101654500563573400, 229140845159564817419800, 229870723235537171747300, 230440922478553640767800, 231050922478553640767800,
  233760605370037537582650, 233830687341027924420100, 233980687341027924420100, 234010991793271696762300, 234160687341027924420100,
  234480659770439783913600, 234500690567114146242300, 234520940710709320163300, 234670743302606717962360, 234700743302606717962360,
  234750881932042829951400, 234780775844846761425200, 234810991793271696762300, 234941032339782507578900, 235001032339782507578900,
  235310991793271696762300, 235450761534762397357850, 235560861864973283736400, 235650761534762397357850, 235670628034655724123900,
  235780922478553640767800, 236100963025064451584400, 236140758255780115058800, 236170991793271696762300, 236180940710709320163300,
  236371101654500563573400, 236520940710709320163300, 236810922478553640767800, 237000853163835584773400, 240370802081273208174200,
  240520783849117528778800, 240660479198657636037400, 241200818333166157951700, 241250881932042829951400, 241790807210602646929400,
  241800520840251565529000, 242070657389374914541800, 242120824395628339595300, 242170845159564817419800, 242300660982575837148100,
  242370940710709320163300, 242870845159564817419800, 242880752003744416925400, 243200718790360914663900, 243220593514064065127100,
  243350604673170605973400, 243670743302606717962360, 243770772070813963140500, 243920772070813963140500, 243980743302606717962360,
  244030352211479060416850, 244051032339782507578900, 244181032339782507578900, 244330881932042829951400, 244480667273958378205000,
  244590845159564817419800, 244600807210602646929400, 244710361531374122271900, 244780940710709320163300, 245031101654500563573400,
  245150853163835584773400, 245170615673260127406150, 245350764924917564926000, 245650772070813963140500, 245770807210602646929400,
  246040702756095907146000, 246150513601201923503400, 246180881932042829951400, 246510647325022336573000, 246870507374563050903300,
  247260802081273208174200, 247580807210602646929400, 247730922478553640767800, 248150597311988871648800, 248190737895884590934800,
  248470542183362603389400, 248630788105078970658500, 248710678243850103847500, 248950727887538735236550, 249070807210602646929400,
  249310597311988871648800, 249760702756095907146000, 250330824395628339595300, 250420837748767602047600, 250780837748767602047600,
  250880647325022336573000, 251030792550255227741800, 251040672608556448734250, 251380792550255227741800, 251390991793271696762300,
  251630695610199508931400, 251710764924917564926000, 251760611127022719730500, 251950881932042829951400, 251960963025064451584400,
  252151032339782507578900, 252160940710709320163300, 252260638181601740609850, 252400679703730045962700, 252730922478553640767800,
  252860881932042829951400, 252930922478553640767800, 253070560489895378069400, 253111032339782507578900, 253170783849117528778800,
  253350907063485658042100, 253461032339782507578900, 253510718790360914663900, 253610824395628339595300, 254390761534762397357850,
  254430853163835584773400, 254540881932042829951400, 254740893710346395589800, 254750881932042829951400, 254900963025064451584400,
  254991032339782507578900, 255120845159564817419800, 255130735298335950608700, 255620963025064451584400, 256130761534762397357850,
  256220407632253651609600, 256230853163835584773400, 256330845159564817419800, 256700697349373780118400, 256710407632253651609600,
  256740812617324773956900, 257930783849117528778800, 257940893710346395589800, 258180881932042829951400, 258361032339782507578900,
  258500697349373780118400, 258920812617324773956900, 259030720988251586541400, 259180922478553640767800, 259191032339782507578900,
  259280963025064451584400, 259430779766918076753300, 259541101654500563573400, 259550812617324773956900, 259680602611241885699700,
  259760602611241885699700, 259910673987888661967900, 260071101654500563573400, 260290991793271696762300, 260310940710709320163300,
  260390991793271696762300, 260410752003744416925400, 260450940710709320163300, 260630732766555152179800, 260851032339782507578900,
  260970907063485658042100, 261020830849480453352400, 261260730297293893142600, 261590963025064451584400, 261741032339782507578900,
  261780830849480453352400, 263711101654500563573400, 263760668581166534940200, 263770574354544707198760, 263790845159564817419800,
  263990682689026360930800, 264150845159564817419800, 264260797202256791231100, 264320871395991264168800, 264340676804976358637500,
  264650940710709320163300, 264690622905326285368800, 264950963025064451584400, 264970893710346395589800, 265191032339782507578900,
  265381101654500563573400, 265500940710709320163300, 266311032339782507578900, 266790472312572678925200, 266800764924917564926000,
  266810802081273208174200, 266840720988251586541400, 266901032339782507578900, 267000684215773574009700, 267230963025064451584400,
  267810940710709320163300, 268000507637375291530300, 269890499067903181041900, 269970893710346395589800, 270851101654500563573400,
  271380845159564817419800, 271611032339782507578900, 271690657389374914541800, 271710472312572678925200, 271780881932042829951400,
  272310797202256791231100, 272430881932042829951400, 272840963025064451584400, 274250413616092344972850, 274260732766555152179800,
  274631101654500563573400, 274890732766555152179800, 274930881932042829951400, 274941032339782507578900, 275060922478553640767800]

def emitM52_1 : List Nat := [
  275150797202256791231100, 275300824395628339595300, 275420797202256791231100, 275750749018448101957300, 275780871395991264168800,
  276020727887538735236550, 276040807210602646929400, 276110830849480453352400, 276450845159564817419800, 276650681185238624476800,
  276680727887538735236550, 276830727887538735236550, 277000963025064451584400, 277140797202256791231100, 277210963025064451584400,
  277430732766555152179800, 277450871395991264168800, 277700504783744565036850, 277940376024776594505370, 278070991793271696762300,
  278090376024776594505370, 278190684215773574009700, 278350764924917564926000, 278610650568549911888400, 278801101654500563573400,
  279000991793271696762300, 279050881932042829951400, 279150845159564817419800, 279270940710709320163300, 279341101654500563573400,
  279630665983617894614300, 279690871395991264168800, 279820991793271696762300, 280090779766918076753300, 280780991793271696762300,
  281730725534488994217150, 282160732766555152179800, 283040457719463453563500, 283100618026309868425550, 283170991793271696762300,
  283570853163835584773400, 283851101654500563573400, 283891032339782507578900, 284151101654500563573400, 284310922478553640767800,
  284480665983617894614300, 284500963025064451584400, 284600725534488994217150, 284970991793271696762300, 285000881932042829951400,
  285261032339782507578900, 286390991793271696762300, 286511032339782507578900, 287791101654500563573400, 287810853163835584773400,
  288570382060777916016500, 288660991793271696762300, 289090588074656858547200, 289820837748767602047600, 291050588074656858547200,
  291510749018448101957300, 292110991793271696762300, 292291101654500563573400, 292551101654500563573400, 292750737895884590934800,
  292820688941062059064300, 292871101654500563573400, 294200963025064451584400, 294670991793271696762300, 294860812617324773956900,
  294921101654500563573400, 295440963025064451584400, 295630812617324773956900, 296090500773182019313900, 296160991793271696762300,
  296940991793271696762300, 296990991793271696762300, 297020775844846761425200, 297301101654500563573400, 299830418675126812330860,
  299860758255780115058800, 299920712472470752510740, 300010824395628339595300, 300050433193327796780600, 300110922478553640767800,
  300310797202256791231100, 300590922478553640767800, 300640593514064065127100, 300700352211479060416850, 301370991793271696762300,
  302400991793271696762300, 303320940710709320163300, 303330922478553640767800, 303820907063485658042100, 304100486168691161931700,
  304420667273958378205000, 304521101654500563573400, 304570845159564817419800, 304650746119694414632000, 304730628915718692339350,
  304750824395628339595300, 305240569842501179151700, 305260695610199508931400, 305280639157219235146300, 306040714534399472784300,
  306340853163835584773400, 306930692220044341363300, 307010812617324773956900, 307720845159564817419800, 308300837748767602047600,
  308610881932042829951400, 308960706530128705430600, 309001101654500563573400, 309060837748767602047600, 309330830849480453352400,
  310010881932042829951400, 310360861864973283736400, 310380922478553640767800, 310700991793271696762300, 311050922478553640767800,
  311500861864973283736400, 311790797202256791231100, 311811101654500563573400, 311851101654500563573400, 311920772070813963140500,
  312070940710709320163300, 312320830849480453352400, 312430922478553640767800, 312781101654500563573400, 312911032339782507578900,
  313540611870520568482200, 314351101654500563573400, 314710893710346395589800, 314810881932042829951400, 315050991793271696762300,
  315610922478553640767800, 315720940710709320163300, 315791101654500563573400, 316390764924917564926000, 317211101654500563573400,
  318901032339782507578900, 319460749018448101957300, 320000627161287727248400, 320040940710709320163300, 320250845159564817419800,
  320260861864973283736400, 320480664709715316871200, 320800611127022719730500, 320851032339782507578900, 320970725534488994217150,
  321130688941062059064300, 321471101654500563573400, 321600893710346395589800, 321730706530128705430600, 321780871395991264168800,
  322100871395991264168800, 322270737895884590934800, 322990845159564817419800, 323020797202256791231100, 323400881932042829951400,
  324220940710709320163300, 324230861864973283736400, 324260627161287727248400, 324400845159564817419800, 324540664709715316871200,
  324550881932042829951400, 324631101654500563573400, 324670611127022719730500, 324760725534488994217150, 324771032339782507578900,
  324790688941062059064300, 324900871395991264168800, 325000706530128705430600, 325110893710346395589800, 325360737895884590934800,
  325410845159564817419800, 325530797202256791231100, 325930871395991264168800, 326100764924917564926000, 326310764924917564926000,
  326501032339782507578900, 326760922478553640767800, 326810893710346395589800, 327690597311988871648800, 327800783849117528778800,
  328420853163835584773400, 328520963025064451584400, 328540881932042829951400, 328790963025064451584400, 328930893710346395589800,
  329220735298335950608700, 329630940710709320163300, 329721032339782507578900, 329930824395628339595300, 330210572827797494119800,
  330410668581166534940200, 330460807210602646929400, 330671032339782507578900, 330731032339782507578900, 330860617235791917714200,
  331040824395628339595300, 331091101654500563573400, 331260668581166534940200, 331360802081273208174200, 331450772070813963140500,
  331510991793271696762300, 332530940710709320163300, 332580772070813963140500, 332680755080910283600700, 332890991793271696762300,
  332920788105078970658500, 332931101654500563573400, 333240824395628339595300, 333940830849480453352400, 335090837748767602047600,
  335100922478553640767800, 335800893710346395589800, 336330667273958378205000, 337561101654500563573400, 338290749018448101957300,
  338530881932042829951400, 338790639157219235146300, 338890922478553640767800, 339450768434049546053000, 341091101654500563573400,
  341800963025064451584400, 342550871395991264168800, 343211101654500563573400, 343820922478553640767800, 343890601933273187161900,
  345031101654500563573400, 348920611870520568482200, 348990845159564817419800, 349070963025064451584400, 349090991793271696762300,
  349131032339782507578900, 349170783849117528778800, 349350606778511525756600, 350130907063485658042100, 350360783849117528778800,
  350370907063485658042100, 351990907063485658042100, 352110552760727947904800, 352150991793271696762300, 352650552760727947904800,
  352680991793271696762300, 352820893710346395589800, 352990991793271696762300, 353360797202256791231100, 353520940710709320163300,
  354221032339782507578900, 354300700921182040326300, 354690678243850103847500, 354860871395991264168800, 354921032339782507578900,
  354980568866883684615300, 355190720988251586541400, 355270893710346395589800, 355420679703730045962700, 355981101654500563573400,
  356570708471937291140800, 356720940710709320163300, 356760922478553640767800, 356860718790360914663900, 357220853163835584773400,
  357450797202256791231100, 357480678243850103847500, 357600940710709320163300, 357700679703730045962700, 357770708471937291140800,
  357820940710709320163300, 357891032339782507578900, 357970700921182040326300, 358210871395991264168800, 358231032339782507578900,
  358280568866883684615300, 358430720988251586541400, 358480893710346395589800, 358681101654500563573400, 358890922478553640767800,
  359100845159564817419800, 359200963025064451584400, 359370723235537171747300, 360241032339782507578900, 360271101654500563573400,
  360361101654500563573400, 360660963025064451584400, 360670893710346395589800, 360740881932042829951400, 360840628915718692339350,
  361320963025064451584400, 361330779766918076753300, 361360881932042829951400, 361511032339782507578900, 361531101654500563573400,
  361591101654500563573400, 361820628915718692339350, 362080732766555152179800, 362150486594223718945400, 362280907063485658042100,
  362440907063485658042100, 362551101654500563573400, 362590824395628339595300, 362750505039826651204200, 363050940710709320163300,
  363190797202256791231100, 363390818333166157951700, 363460871395991264168800, 364540837748767602047600, 364700922478553640767800,
  365231032339782507578900, 365300871395991264168800, 365570922478553640767800, 365750991793271696762300, 366000893710346395589800,
  366290704625309208361200, 366810812617324773956900, 367160812617324773956900, 367190991793271696762300, 367240893710346395589800,
  367310704625309208361200, 367790907063485658042100, 367820907063485658042100, 367930649475642858669400, 368070679703730045962700,
  368160637215410649436100, 368270643157752696516200, 368641032339782507578900, 368950940710709320163300, 369140643157752696516200,
  369380732766555152179800, 369390637215410649436100, 369411032339782507578900, 369420679703730045962700, 369470991793271696762300,
  369740761534762397357850, 369910963025064451584400, 370020649475642858669400, 370701032339782507578900, 370960907063485658042100,
  372020871395991264168800, 372281101654500563573400, 373270639157219235146300, 373360907063485658042100, 373410807210602646929400,
  374671101654500563573400, 374920871395991264168800, 375550740562709299151000, 375861101654500563573400, 376361032339782507578900,
  376661101654500563573400, 376790853163835584773400, 377070861864973283736400, 377820907063485658042100, 378060476079496388236740,
  378570740562709299151000, 379410893710346395589800, 379690871395991264168800, 380240807210602646929400, 380250907063485658042100,
  380651101654500563573400, 380810893710346395589800, 380851101654500563573400, 381450907063485658042100, 381490861864973283736400,
  381551101654500563573400, 381600740562709299151000, 381690853163835584773400, 382150476079496388236740, 382360740562709299151000,
  382630861864973283736400, 382710861864973283736400, 382720764924917564926000, 382811101654500563573400, 382830718790360914663900,
  382900845159564817419800, 382910940710709320163300, 383640830849480453352400, 383760764924917564926000, 383811101654500563573400,
  383821101654500563573400, 383860845159564817419800, 383880940710709320163300, 383910807210602646929400, 383930725534488994217150,
  384041101654500563573400, 384520991793271696762300, 384540991793271696762300, 384690473614916667553900, 384771032339782507578900,
  384800940710709320163300, 385120991793271696762300, 385420991793271696762300, 385550473614916667553900, 386040907063485658042100,
  386200676804976358637500, 386220940710709320163300, 386340853163835584773400, 386460861864973283736400, 386510433193327796780600]

def emitM52_2 : List Nat := [
  386560871395991264168800, 386630922478553640767800, 386650907063485658042100, 387061101654500563573400, 387520881932042829951400,
  387540693900756173001500, 387610772070813963140500, 389570723235537171747300, 390000727887538735236550, 390031101654500563573400,
  390231032339782507578900, 390721101654500563573400, 390800692220044341363300, 391080963025064451584400, 391180692220044341363300,
  391280963025064451584400, 391380861864973283736400, 391511101654500563573400, 391780818333166157951700, 392011101654500563573400,
  392080893710346395589800, 392690861864973283736400, 392771101654500563573400, 393011101654500563573400, 393020893710346395589800,
  393400737895884590934800, 394381101654500563573400, 395320737895884590934800, 395691101654500563573400, 395920893710346395589800,
  396360641137481964764260, 396400830849480453352400, 397171101654500563573400, 397190725534488994217150, 397261101654500563573400,
  397400893710346395589800, 397640853163835584773400, 397990922478553640767800, 400630922478553640767800, 404810940710709320163300,
  406130963025064451584400, 406140963025064451584400, 406350940710709320163300, 406430963025064451584400, 406440963025064451584400,
  406570853163835584773400, 406700382060777916016500, 406920907063485658042100, 407630758255780115058800, 407781032339782507578900,
  407841032339782507578900, 408010638181601740609850, 408360638181601740609850]

def emitM55_0 : List Nat := [
  215160000000000000000000]

def emitM56_0 : List Nat := [
  199790773171139965349600, 199940216146031762181770, 200130589912993590518600, 200270612227348721939500, 200410842485858021344200,
  201070750856784833928600, 201350548041960104700100, 201840801939347210527700, 201950174840504024697770, 202470801939347210527700,
  202500378046768107206880, 203070241236666591338400, 203160773171139965349600, 204390773171139965349600, 205720911800576077338800,
  206520801939347210527700, 206980801939347210527700, 208030298244086969164800, 208440607348332304996400, 208530801939347210527700,
  208820801939347210527700, 209340343442599343470520, 209860237985326617742960, 210150842485858021344200, 210290540443369406907900,
  210330531134327100306700, 210350540443369406907900, 210460593995193042544100, 211600280990731926385600, 212050280990731926385600,
  213060842485858021344200, 213120842485858021344200, 213330842485858021344200, 214950681542066777934100, 215120622763400287722200,
  216290634541703853360500, 219340842485858021344200, 222420911800576077338800, 222530911800576077338800, 222560911800576077338800,
  222690585990922275190500, 222830585990922275190500, 222900911800576077338800, 222960911800576077338800, 223200773171139965349600,
  224110732624629154533200, 224950568401855628824000, 227880540443369406907900, 228230911800576077338800, 233760578580125059818200,
  233830412757317399465100, 234320911800576077338800, 234750732624629154533200, 235000911800576077338800, 240650495912267741371500,
  240660593995193042544100, 241200392504890988317620, 241630495912267741371500, 241800559164523615722500, 242130911800576077338800,
  242300750856784833928600, 243350801939347210527700, 245150801939347210527700, 246150550708784812916200, 246870369305574329198400,
  248190801939347210527700, 254630750856784833928600, 259180911800576077338800, 259910607348332304996400, 260630703856421909355050,
  261260801939347210527700, 262240801939347210527700, 263710378046768107206880, 263770628479241671717050, 263910485532588373207100,
  264120413439913906505000, 264970634541703853360500, 265000842485858021344200, 266840655305640331185000, 266960692078118343716750,
  268000333418057844364930, 269890216146031762181770, 269970634541703853360500, 270830842485858021344200, 271690692078118343716750,
  275300911800576077338800, 276650607348332304996400, 276680403660139578892350, 276830403660139578892350, 278610571680837911123200,
  279630717209561171807300, 283100343442599343470520, 284040801939347210527700, 284480773171139965349600, 289090911800576077338800,
  291050911800576077338800, 292600703856421909355050, 296990354585172859562200, 297020553448682231727700, 299860548041960104700100,
  299920773171139965349600, 300000911800576077338800, 300010476129693408379500, 300050773171139965349600, 304310911800576077338800,
  305260801939347210527700, 308970628479241671717050, 310380607348332304996400, 314350589912993590518600, 315610598251154484423700,
  316840408105315835975700, 319950750856784833928600, 320040512902171420911200, 320260911800576077338800, 320800692078118343716750,
  321730911800576077338800, 323400732624629154533200, 324220512902171420911200, 324230911800576077338800, 324550732624629154533200,
  324670692078118343716750, 325000911800576077338800, 326810842485858021344200, 329740842485858021344200, 330210562149819930690700,
  335390408105315835975700, 343890540443369406907900, 343990681542066777934100, 348920911800576077338800, 352150477420033891970250,
  352220622763400287722200, 352680477420033891970250, 352700622763400287722200, 360740495912267741371500, 361360495912267741371500,
  366810628479241671717050, 367160628479241671717050, 368640433888226766185700, 369410578580125059818200, 372400538033614249001900,
  373290750856784833928600, 382720526785815906332800, 383760526785815906332800, 384690495912267741371500, 385550495912267741371500,
  386510773171139965349600, 387450692078118343716750, 387480692078118343716750, 391650911800576077338800, 392810911800576077338800,
  396360241236666591338400, 405720628479241671717050, 408010647894843115812800, 408360647894843115812800]

def emitM60_0 : List Nat := [
  215680000000000000000000]

def emitM62_0 : List Nat := [
  199810739701313956843900, 199950964830493817493300, 199970647025110782698800, 200050585281574900273950, 200440739701313956843900,
  200460464100854534419200, 200480873201420630077900, 200810873201420630077900, 200980873201420630077900, 201420658025200304131700,
  201460670386595900849350, 201740814422754139866000, 201800712257629386667800, 202780895515775761499000, 203020624710755651277900,
  203070814422754139866000, 203580594700296406244000, 204150610734561413761940, 204981034145211873487800, 205721034145211873487800,
  205810839554196967956700, 206670924283983006677000, 207251034145211873487800, 208090777650276127334300, 208340615179737670845400,
  208400687571621593515200, 208430924283983006677000, 208460665257266462094200, 208520602396400519856900, 208820687571621593515200,
  209120598474329204528700, 209140502333212489066300, 209190557927818393712300, 209280484839067539433100, 209320785654546894687900,
  209370794355684593650850, 209400924283983006677000, 209450895515775761499000, 209610924283983006677000, 209980964830493817493300,
  209990628100910818846000, 210290794355684593650850, 210330814422754139866000, 210350794355684593650850, 210380839554196967956700,
  210470610734561413761940, 211870785654546894687900, 211930750823877467866300, 212200756886339649509750, 212460637116020518275800,
  212540581966354168583900, 212770704561525273055000, 213220826201057705504400, 213330631610042799972950, 213870557927818393712300,
  214020471024033691351400, 214350687571621593515200, 214720681509159411871800, 214740964830493817493300, 214760785654546894687900,
  214800639020840015345200, 215050690746491424973300, 215120895515775761499000, 215340594700296406244000, 215350552117055312984200,
  215470662788005203057100, 215740481999120087263300, 216170763340191763266900, 216210621431773368978750, 216280535784549702654300,
  216430826201057705504400, 216440708335558071339700, 216530667789047260523300, 216710565010423650573600, 216910729692968101145700,
  217000531101419734244400, 217021034145211873487800, 217040606478599971882400, 217190734571984518088800, 217360895515775761499000,
  217370895515775761499000, 217410610734561413761940, 217560631610042799972950, 217920720595790280572950, 217991034145211873487800,
  218620895515775761499000, 218840610734561413761940, 219120873201420630077900, 219160745108036083871500, 219340631610042799972950,
  219430623057825456156800, 219740854969264950682400, 219950873201420630077900, 220160745108036083871500, 220240814422754139866000,
  220400854969264950682400, 220470684494455726839850, 220511034145211873487800, 220570734571984518088800, 220620720595790280572950,
  220750465787235139619800, 220990854969264950682400, 221210739701313956843900, 221320623057825456156800, 221490873201420630077900,
  221960585281574900273950, 221990734571984518088800, 222090873201420630077900, 222180712257629386667800, 222280708335558071339700,
  222380644963182062425200, 222420895515775761499000, 222780558786192762851500, 222910558786192762851500, 222960895515775761499000,
  223030826201057705504400, 223120482399922227017200, 223500854969264950682400, 223511034145211873487800, 223740803886702574083300,
  223910854969264950682400, 224460734571984518088800, 225300745108036083871500, 226040814422754139866000, 226150763340191763266900,
  226970763340191763266900, 227390557927818393712300, 227501034145211873487800, 227680803886702574083300, 227880763340191763266900,
  228061034145211873487800, 228100750823877467866300, 228230387530739449725960, 228260826201057705504400, 228330694025473707272400,
  228360794355684593650850, 229090559651999037162900, 229340873201420630077900, 229490839554196967956700, 230471034145211873487800,
  230490803886702574083300, 230680777650276127334300, 231590803886702574083300, 232730777650276127334300, 233081034145211873487800,
  233880729692968101145700, 233960777650276127334300, 234330555396037595283300, 234360678610405724546500, 234540391658309482949100,
  234580658025200304131700, 234810814422754139866000, 234850739701313956843900, 234940476929808655711400, 235260391658309482949100,
  235320739701313956843900, 235670329046267166683440, 235691034145211873487800, 236180745108036083871500, 236370814422754139866000,
  236520745108036083871500, 236921034145211873487800, 238530839554196967956700, 239400839554196967956700, 240130589880086224456250,
  240370785654546894687900, 240520478077048771935150, 240860770239478911962000, 241200697415628874840500, 241620924283983006677000,
  241780486498856680336800, 241790526004775375041600, 241850486498856680336800, 241890716339828838693400, 242131034145211873487800,
  242470839554196967956700, 242480814422754139866000, 243200924283983006677000, 243520584164244840461400, 243670555396037595283300,
  243730584164244840461400, 243750750823877467866300, 243780750823877467866300, 243980555396037595283300, 244030587554400008029500,
  244200694025473707272400, 244250750823877467866300, 244431034145211873487800, 244780814422754139866000, 244940595942548406099800,
  245051034145211873487800, 245150814422754139866000, 245300964830493817493300, 245370477693171141218500, 245550616706484883924200,
  245730615179737670845400, 245911034145211873487800, 245960873201420630077900, 246040615179737670845400, 246130548942185481526200,
  246180712257629386667800, 246230924283983006677000, 246530642942911330673300, 246810826201057705504400, 246850545865019614850850,
  246910756886339649509750, 246940895515775761499000, 246970873201420630077900, 247080351599208247957230, 247360521155340381180600,
  247540854969264950682400, 247580690746491424973300, 247940658025200304131700, 248010895515775761499000, 248080756886339649509750,
  248200895515775761499000, 248220785654546894687900, 248260720595790280572950, 248590826201057705504400, 248670704561525273055000,
  249080531101419734244400, 249200756886339649509750, 249300770239478911962000, 249760615179737670845400, 250000924283983006677000,
  250310756886339649509750, 250640873201420630077900, 250770826201057705504400, 251530814422754139866000, 251630592261151093828100,
  251660681509159411871800, 251690665257266462094200, 251960964830493817493300, 251970633411893350240800, 252380716339828838693400,
  252400690746491424973300, 252770814422754139866000, 252890662788005203057100, 253020794355684593650850, 253150854969264950682400,
  253610803886702574083300, 253800964830493817493300, 253840964830493817493300, 254020637116020518275800, 254230777650276127334300,
  255360854969264950682400, 255620964830493817493300, 256220539980969612557400, 256450750823877467866300, 256710539980969612557400,
  257200777650276127334300, 257331034145211873487800, 257580585281574900273950, 257780665257266462094200, 258240964830493817493300,
  259550814422754139866000, 259580964830493817493300, 259640545865019614850850, 259720527885708570791200, 259910964830493817493300,
  260010750823877467866300, 260120644963182062425200, 260410613675949934391300, 261020763340191763266900, 261030964830493817493300,
  261140660378250045151100, 261260543617734029644950, 261270609295687668552000, 261430750823877467866300, 261780763340191763266900,
  261790466469831646659700, 261970785654546894687900, 262220607877224169356400, 262300626391467482915900, 262480785654546894687900,
  262620498959398525881250, 263360964830493817493300, 263540568749176857735600, 263550924283983006677000, 263810642942911330673300,
  263910873201420630077900, 264060633411893350240800, 264070633411893350240800, 264080854969264950682400, 264120964830493817493300,
  264200924283983006677000, 264340763340191763266900, 264650612194441355877200, 264690594700296406244000, 264940628100910818846000,
  264950924283983006677000, 265250964830493817493300, 265800839554196967956700, 266650964830493817493300, 267580826201057705504400,
  267810612194441355877200, 268620605099267758648800, 269461034145211873487800, 269700443336918056594800, 269740964830493817493300,
  271380873201420630077900, 271690572633160189361940, 271920924283983006677000, 272251034145211873487800, 274260739701313956843900,
  274890739701313956843900, 274910626391467482915900, 274980583059261221802900, 275150532417228191995500, 276110763340191763266900,
  276680629840085090032900, 276830629840085090032900, 277540585281574900273950, 277690839554196967956700, 277840482399922227017200,
  277850482399922227017200, 277880924283983006677000, 278130826201057705504400, 278330644963182062425200, 279000794355684593650850,
  279150530449951632125000, 279220814422754139866000, 279340591063531989156600, 279410739701313956843900, 279580839554196967956700,
  279690839554196967956700, 279730626391467482915900, 279850745108036083871500, 279870606478599971882400, 280240964830493817493300,
  280340763340191763266900, 280521034145211873487800, 280630895515775761499000, 280701034145211873487800, 280920794355684593650850,
  281010826201057705504400, 281070497081409060721700, 281140785654546894687900, 281290447215520560110500, 281330814422754139866000,
  281360484839067539433100, 281450794355684593650850, 281510924283983006677000, 281540626391467482915900, 281650414094294469218900,
  281720814422754139866000, 282010745108036083871500, 282220745108036083871500, 282340895515775761499000, 282510964830493817493300,
  282870777650276127334300, 283160507876192982999350, 283310745108036083871500, 283630610734561413761940, 283780739701313956843900,
  283850531757159788860300, 284040690746491424973300, 284140739701313956843900, 284150531757159788860300, 284180794355684593650850,
  284220601071877844854800, 284250552926776336246100, 284510895515775761499000, 284870924283983006677000, 284970794355684593650850,
  285161034145211873487800, 285480697415628874840500, 286110606478599971882400, 286290777650276127334300, 287010826201057705504400,
  287030924283983006677000, 287530814422754139866000, 287790658025200304131700, 287890700924760855967500, 287990633411893350240800,
  288570803886702574083300, 288650708335558071339700, 288660658025200304131700, 288790739701313956843900, 288880581966354168583900,
  289090584164244840461400, 289821034145211873487800, 290060826201057705504400, 290300924283983006677000, 291050584164244840461400,
  291580633411893350240800, 291900854969264950682400, 291970708335558071339700, 292110658025200304131700, 292330826201057705504400,
  292450777650276127334300, 292550673053420609065400, 293690697415628874840500, 294080543617734029644950, 294940697415628874840500,
  297011034145211873487800, 298010712257629386667800, 298071034145211873487800, 299800628100910818846000, 299830489903440821308600]

def emitM62_1 : List Nat := [
  300080588710482248137200, 300700587554400008029500, 300900681509159411871800, 300950777650276127334300, 300970626391467482915900,
  301050729692968101145700, 301270725040966537656300, 301400826201057705504400, 301490873201420630077900, 301710623057825456156800,
  301960647025110782698800, 302190725040966537656300, 302390964830493817493300, 302460681509159411871800, 302490770239478911962000,
  302500895515775761499000, 303030895515775761499000, 303150725040966537656300, 303220725040966537656300, 303310964830493817493300,
  303330461786701678249840, 303430964830493817493300, 303530895515775761499000, 303620895515775761499000, 303850895515775761499000,
  303940895515775761499000, 304080681509159411871800, 304420526627830350105250, 304470814422754139866000, 304520578757522713433800,
  304950637116020518275800, 305110548163971437320700, 305280895515775761499000, 305660895515775761499000, 305990548163971437320700,
  306340725040966537656300, 306970644963182062425200, 307010504814729401038700, 307020750823877467866300, 307720658025200304131700,
  308600612194441355877200, 308620750823877467866300, 309330745108036083871500, 309520694025473707272400, 310700739701313956843900,
  311670628100910818846000, 311710628100910818846000, 311920704561525273055000, 312320618256903537520700, 312830606478599971882400,
  313370606478599971882400, 313510605099267758648800, 313540794355684593650850, 313640700924760855967500, 314060605099267758648800,
  314710534423984497076400, 315720712257629386667800, 316160678610405724546500, 316800964830493817493300, 317560681509159411871800,
  317770678610405724546500, 318000895515775761499000, 318580690746491424973300, 318961034145211873487800, 319340964830493817493300,
  319460427999519980686200, 319610924283983006677000, 319670602396400519856900, 319980794355684593650850, 320040527885708570791200,
  320050568749176857735600, 320270628100910818846000, 320340725040966537656300, 320390873201420630077900, 320470716339828838693400,
  320480479237603383965900, 320700803886702574083300, 320800524158569091068000, 321040964830493817493300, 321100697415628874840500,
  321140647025110782698800, 321600566862328427297300, 321891034145211873487800, 321910640962648601055300, 322020873201420630077900,
  322330770239478911962000, 322421034145211873487800, 322720697415628874840500, 323110716339828838693400, 323131034145211873487800,
  323230777650276127334300, 323990924283983006677000, 324160794355684593650850, 324180568749176857735600, 324220527885708570791200,
  324390628100910818846000, 324540479237603383965900, 324570697415628874840500, 324580803886702574083300, 324660964830493817493300,
  324670524158569091068000, 324961034145211873487800, 325010640962648601055300, 325030777650276127334300, 325110566862328427297300,
  325201034145211873487800, 325310770239478911962000, 325330716339828838693400, 325440924283983006677000, 325491034145211873487800,
  326290675793318027876900, 326540964830493817493300, 326700763340191763266900, 327690543617734029644950, 327800924283983006677000,
  328230924283983006677000, 328820803886702574083300, 329330924283983006677000, 329600924283983006677000, 329820598474329204528700,
  329930794355684593650850, 329990633411893350240800, 330300895515775761499000, 330670700924760855967500, 330730700924760855967500,
  330810924283983006677000, 331470750823877467866300, 331500543617734029644950, 331930750823877467866300, 332680964830493817493300,
  332880602396400519856900, 332980675793318027876900, 333950690746491424973300, 333990690746491424973300, 334100964830493817493300,
  334570506333745950436200, 334850681509159411871800, 334871034145211873487800, 335100578757522713433800, 335790559651999037162900,
  335890839554196967956700, 335920594700296406244000, 336330526627830350105250, 337210712257629386667800, 337250814422754139866000,
  338530571647930545060850, 338790895515775761499000, 339051034145211873487800, 339450603738702553070900, 339800681509159411871800,
  339941034145211873487800, 340130839554196967956700, 340280670386595900849350, 340851034145211873487800, 340911034145211873487800,
  341800531757159788860300, 342530839554196967956700, 343111034145211873487800, 343890763340191763266900, 343940756886339649509750,
  343950756886339649509750, 345880745108036083871500, 345930854969264950682400, 347010745108036083871500, 348470854969264950682400,
  349090502333212489066300, 349490777650276127334300, 350180777650276127334300, 350410485665518524422400, 350640578757522713433800,
  352150644963182062425200, 352420670386595900849350, 352680644963182062425200, 354430777650276127334300, 354690704561525273055000,
  355820803886702574083300, 357480704561525273055000, 358140777650276127334300, 358340803886702574083300, 359470697415628874840500,
  360281034145211873487800, 361481034145211873487800, 361961034145211873487800, 362030803886702574083300, 362110725040966537656300,
  362920609295687668552000, 363000588710482248137200, 363390854969264950682400, 363610609295687668552000, 363670690746491424973300,
  364280609295687668552000, 364330605099267758648800, 364540839554196967956700, 364610694025473707272400, 364811034145211873487800,
  365130605099267758648800, 366290364318406461946640, 367030794355684593650850, 367200794355684593650850, 367310364318406461946640,
  367630578757522713433800, 367710523550664483429900, 368280463766964407867800, 368300803886702574083300, 368310626391467482915900,
  368550553743107400162200, 368790964830493817493300, 368900589880086224456250, 368990803886702574083300, 369470895515775761499000,
  369600463766964407867800, 369780626391467482915900, 370030854969264950682400, 370300658025200304131700, 370570750823877467866300,
  372210826201057705504400, 372400708335558071339700, 373060708335558071339700, 373240485665518524422400, 373250481999120087263300,
  376580839554196967956700, 381260839554196967956700, 382630384921228371440800, 382710384921228371440800, 382750563192191742254500,
  382830924283983006677000, 382901034145211873487800, 383780563192191742254500, 383861034145211873487800, 383910690746491424973300,
  383930624710755651277900, 384520854969264950682400, 385120854969264950682400, 385340678610405724546500, 385430610734561413761940,
  385440517096812369672700, 385680610734561413761940, 385770517096812369672700, 386200763340191763266900, 386460537860748847497200,
  387280700924760855967500, 387380794355684593650850, 387450401351533500568450, 387480401351533500568450, 387540814422754139866000,
  389180734571984518088800, 389570794355684593650850, 390030734571984518088800, 390190697415628874840500, 390340734571984518088800,
  390720734571984518088800, 390760697415628874840500, 391000712257629386667800, 391080585281574900273950, 391250712257629386667800,
  391280585281574900273950, 393210734571984518088800, 393610839554196967956700, 394720543617734029644950, 395390839554196967956700,
  395540675793318027876900, 396360814422754139866000, 396400449212733878802000, 397190624710755651277900, 397290750823877467866300,
  406350505318508804034400, 406430750823877467866300, 406440750823877467866300, 406570734571984518088800, 406640379466670797435500,
  406690658025200304131700, 406700803886702574083300, 406740763340191763266900, 407230591063531989156600, 407780569706121959350700,
  407840569706121959350700]

/-- The rows of `('M', tag)`, for the 64 tags. -/
def emitM : List (List (List Nat)) := [
  [emitM0_0],
  [emitM1_0],
  [],
  [],
  [emitM4_0, emitM4_1],
  [],
  [emitM6_0],
  [emitM7_0],
  [],
  [],
  [emitM10_0],
  [],
  [emitM12_0],
  [],
  [],
  [emitM15_0, emitM15_1, emitM15_2, emitM15_3, emitM15_4, emitM15_5, emitM15_6, emitM15_7],
  [emitM16_0],
  [emitM17_0, emitM17_1],
  [emitM18_0],
  [],
  [emitM20_0, emitM20_1, emitM20_2, emitM20_3, emitM20_4, emitM20_5, emitM20_6],
  [emitM21_0],
  [emitM22_0],
  [],
  [emitM24_0],
  [emitM25_0, emitM25_1, emitM25_2, emitM25_3, emitM25_4, emitM25_5, emitM25_6, emitM25_7, emitM25_8],
  [],
  [emitM27_0, emitM27_1, emitM27_2, emitM27_3, emitM27_4, emitM27_5, emitM27_6, emitM27_7, emitM27_8, emitM27_9, emitM27_10],
  [emitM28_0],
  [emitM29_0, emitM29_1],
  [emitM30_0, emitM30_1, emitM30_2, emitM30_3, emitM30_4],
  [emitM31_0, emitM31_1, emitM31_2, emitM31_3],
  [emitM32_0, emitM32_1, emitM32_2, emitM32_3, emitM32_4],
  [emitM33_0],
  [emitM34_0],
  [emitM35_0],
  [],
  [],
  [emitM38_0],
  [],
  [emitM40_0],
  [],
  [emitM42_0],
  [emitM43_0],
  [],
  [emitM45_0],
  [],
  [],
  [],
  [],
  [],
  [],
  [emitM52_0, emitM52_1, emitM52_2],
  [],
  [],
  [emitM55_0],
  [emitM56_0],
  [],
  [],
  [],
  [emitM60_0],
  [],
  [emitM62_0, emitM62_1],
  []]

end Jieba.PosData
