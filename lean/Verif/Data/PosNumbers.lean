import Verif.Data.PosTables
import Verif.Data.PosEmitB
import Verif.Data.PosEmitE
import Verif.Data.PosEmitM
import Verif.Data.PosEmitS
import Verif.Model.Double
/-!
# The tables shipped in jieba/posseg, with the probabilities

Generated from jieba/posseg/prob_emit.py, prob_trans.py and prob_start.py.  The double is the one nearest to the decimal number in the
file.
-/

namespace Jieba.PosData
open Jieba Jieba.Pos

/-- jieba/posseg/prob_emit.py, row by row. -/
def emitRows : List (List (List Nat)) := emitB ++ (emitE ++ (emitM ++ emitS))

/-- The code point of an entry. -/
def code (e : Nat) : Nat := e / 10000000000000000000

/-- The double of an entry. -/
def value (e : Nat) : ℚ := rnd (-((e % 10 ^ 19 : ℕ) / 10 ^ 17))


def transB0 : List Nat := [
  506484530696487550, 528796303710750700000]

def transB1 : List Nat := [
  74790139784766270, 719861333713056200000]

def transB3 : List Nat := [
  0]

def transB4 : List Nat := [
  6753917715798491000, 272862697874931250000]

def transB6 : List Nat := [
  4442738163948101000, 313603074686467660000]

def transB7 : List Nat := [
  4677309521554972000, 308574252409501740000]

def transB8 : List Nat := [
  0]

def transB10 : List Nat := [
  5870760082677792000, 286439627149290400000]

def transB12 : List Nat := [
  1914032315305203000, 396551290640801700000]

def transB14 : List Nat := [
  0]

def transB15 : List Nat := [
  751000090189675350000, 54773057185880870]

def transB16 : List Nat := [
  0]

def transB17 : List Nat := [
  25432073740587280000, 149362592274446130000]

def transB18 : List Nat := [
  0]

def transB20 : List Nat := [
  368054609970312000000, 2553239955770466000]

def transB21 : List Nat := [
  0]

def transB22 : List Nat := [
  18615927936200090000, 177278871763786180000]

def transB24 : List Nat := [
  93162280080557880000, 50073330222960090000]

def transB25 : List Nat := [
  13869707660269510000, 204401015913586000000]

def transB27 : List Nat := [
  91879947543199380000, 50915661780451870000]

def transB28 : List Nat := [
  68988630810524780000, 69641872110056020000]

def transB29 : List Nat := [
  19889046807373303000, 171279856874303780000]

def transB30 : List Nat := [
  30583032091031265000, 133374585681868800000]

def transB31 : List Nat := [
  585632199504386000000, 286585251535680880]

def transB32 : List Nat := [
  51165285851432640000, 91505116143313270000]

def transB33 : List Nat := [
  15615808279732152000, 193394962523667350000]

def transB34 : List Nat := [
  51805503874379460, 756568808528492500000]

def transB35 : List Nat := [
  23327551934156823000, 156990643006064760000]

def transB36 : List Nat := [
  0]

def transB38 : List Nat := [
  1687625300447763000, 409027405239682900000]

def transB40 : List Nat := [
  223952695702690900000, 11261887810814913000]

def transB41 : List Nat := [
  0]

def transB42 : List Nat := [
  1546595111805039600, 417683738250112900000]

def transB43 : List Nat := [
  6198448272867337000, 281170336381716930000]

def transB45 : List Nat := [
  2170492159178564, 1073798237410810000000]

def transB52 : List Nat := [
  1240926651463586900, 439551000291293400000]

def transB53 : List Nat := [
  0]

def transB55 : List Nat := [
  0]

def transB56 : List Nat := [
  1102649184048478000, 451296273241898100000]

def transB57 : List Nat := [
  0]

def transB60 : List Nat := [
  462369177184097750, 537887276328689200000]

def transB62 : List Nat := [
  55434402977426110000, 85437038292182800000]

/-- jieba/posseg/prob_trans.py: the values for the states with 'B', times -10^20, in the order of the states that `trans` lists. -/
def transValuesB : List (List Nat) := [
  transB0, transB1, [], transB3, transB4, [], transB6, transB7,
  transB8, [], transB10, [], transB12, [], transB14, transB15,
  transB16, transB17, transB18, [], transB20, transB21, transB22, [],
  transB24, transB25, [], transB27, transB28, transB29, transB30, transB31,
  transB32, transB33, transB34, transB35, transB36, [], transB38, [],
  transB40, transB41, transB42, transB43, [], transB45, [], [],
  [], [], [], [], transB52, transB53, [], transB55,
  transB56, transB57, [], [], transB60, [], transB62, []]

def transE0 : List Nat := [
  343015094949384070000, 653035936986623700000, 690589027015635700000, 552598355892829200000, 406937061749108200000, 411726131205123700000,
  996526780887070500000, 1132339129302389800000, 571758922672790100000, 603849694680800200000, 610483889494472400000, 552295274334001700000,
  443663268726045700000, 836156057114558800000, 147940607563687800000, 483165663608944200000, 845171166813988600000, 719446639720501850000,
  532170142537312900000, 764288008858047900000, 651937024829064200000, 978294625207675000000, 609585410853690850000, 790748776397204700000,
  447975980637639700000, 1352061587036011800000, 996526780887070500000, 618824666443105500000, 503946445029114500000, 633220313386316400000,
  220689772766062870000, 858614193722942600000, 1157470572130480400000, 335480251563462400000, 1282746868980017200000, 845802083733315200000,
  633069369961431000000, 484130382946744500000, 1081256566925790700000, 786812669009146700000, 1081256566925790700000, 736575777634370000000,
  354457512514228100000, 337842642759392700000, 964941485945222700000, 903197950062797800000, 515564189192139100000, 775229487456634600000,
  973642623644185600000, 656121735822614200000, 649596683990648100000, 473967475678773000000, 1157470572130480400000, 419107125090545800000,
  493482988747826800000, 635899386742093050000, 1063024411246395200000, 368685360031555500000, 498460092470329200000, 394771789128704700000,
  1282746868980017200000, 777761268255063500000, 492387240018587100000, 581625470244980600000, 762897165853434700000, 151348818800279170000,
  442624767463635600000, 347732289813311370000, 727064062810063500000, 315481039812304240000, 638095553439519850000, 999425534574395700000,
  923015642921172700000, 550694172752743200000]

def transE1 : List Nat := [
  366949066307724600000, 557742156406734300000, 740885951711357500000, 644241900155394700000, 534199675764059800000, 455815301560984100000,
  917244810937493300000, 662040215674930450000, 589216365637808900000, 686156421356619200000, 599787254340331200000, 559589784023491600000,
  882414141510671800000, 267190947153976670000, 599092807105050100000, 925945948636456300000, 774533175373478700000, 624570870730789400000,
  894930455806072300000, 748296748926729600000, 957791321748309700000, 543676458906319400000, 925945948636456300000, 540545087599704500000,
  706223490902834300000, 615202322323057100000, 637924009993241600000, 69870188247790840000, 901829742954767400000, 1096420757860298800000,
  306468310657079050000, 971144461010762000000, 785069226939261360000, 555479616454936500000, 986559528993487900000, 917244810937493300000,
  888476603692315200000, 448800474249233350000, 353587438441218200000, 1027106039804304200000, 1096420757860298800000, 548356865526099700000,
  871291577999649300000, 986559528993487900000, 772552912643860800000, 727532812448905200000, 553705734021198300000, 582547228187941600000,
  682904102186063260000, 774533175373478700000, 917244810937493300000, 322615528091367200000, 601544768822482000000, 527723222226316850000,
  917244810937493300000, 721470350267261650000, 738068864014687800000, 796847530504899700000, 278332663660659830000, 525709731385411200000,
  367459705715182050000, 888476603692315200000, 224497190578059500000, 630076848449092100000, 971144461010762000000, 730064593247334150000]

def transE3 : List Nat := [
  360523675166632260000, 593287842449770600000, 582008293035236200000, 547413194977660500000, 335424584328471200000, 324087671226596000000,
  903895875522056300000, 496708704885052000000, 584711160274028100000, 597868796052900000000, 542804084257633800000, 479046351317120300000,
  794034646655245300000, 162962043383936740000, 468224992853097100000, 819166089483335800000, 730435769983245600000, 535007930110662600000,
  757262168642713500000, 664106348242219200000, 1013757104388867200000, 544622316165952800000, 834581157466061700000, 410448482208987100000,
  635338140997041100000, 484930401319413700000, 673637366222651700000, 214868879057944500000, 903895875522056300000, 944442386332872600000,
  301068023498986430000, 819166089483335800000, 614858699732439800000, 509414592696942600000, 1013757104388867200000, 805812950220883600000,
  730435769983245600000, 272843459996854400000, 293490984736543450000, 875127668276878100000, 783498595089462700000, 456541701171090800000,
  765266439410067200000, 944442386332872600000, 652665313124444800000, 749851371427341400000, 469949173496547700000, 464040281859547000000,
  510061844147504300000, 695951721354072600000, 352418682550911300000, 580683770360234150000, 351350581608877870000, 664106348242219200000,
  447808882812905100000, 601043665884358100000, 736498232164889100000, 207892733167305450000, 436301949834426400000, 427110298695537500000,
  664106348242219200000, 307195768029095500000, 602669717971536100000, 944442386332872600000, 522491615815262000000]

def transE4 : List Nat := [
  470767330257427800000, 780015013341973700000, 628328929701778800000, 455755778193422100000, 621846213393853900000, 557752003264809500000,
  562899338285343550000, 1235402702502027800000, 734339173092402200000, 548293573040973200000, 522472947609090500000, 1235402702502027800000,
  471102338945956100000, 850387942331022000000, 74885060034594260000, 546443571666581200000, 917597319467233200000, 765354665922786200000,
  489353671919494100000, 674455522983531800000, 569730050084188600000, 1166087984446033200000, 615149150783235600000, 781073224275027400000,
  539367929591897100000, 1096773266390038700000, 610212314185438900000, 611570239998077000000, 661423411284104400000, 230224878607200800000,
  986912037523227800000, 288270796342686400000, 1166087984446033200000, 1040811687596496400000, 775890717488568800000, 485737458685199500000,
  816437228299385300000, 564961267005617100000, 1235402702502027800000, 468033889575254800000, 470767330257427800000, 1027458548334044200000,
  460341229224986900000, 774885683903218700000, 821089229862874600000, 621629997093404400000, 642443788163038300000, 480599805508526400000,
  363634497285463700000, 400194435366764100000, 727885320978645100000, 1096773266390038700000, 390382870242831900000, 442886951279557500000,
  568834330723786950000, 832867533428512800000, 563139723016483000000, 882766650040411700000, 869046537889063200000, 251246806910631700000,
  746367789679852400000, 606431145411128100000, 802329368473394700000, 272563442943045950000, 593566208908406700000, 946365526712411400000,
  885751946355379800000, 842220139229595200000, 1235402702502027800000]

def transE6 : List Nat := [
  431650578772519500000, 565771320636087600000, 781092784270065300000, 497404476975547500000, 409644155987294200000, 348489302319587630000,
  856861354439817000000, 1219295447737453500000, 518309397545524400000, 1288610165793448000000, 537786288325581700000, 1288610165793448000000,
  521894340261533250000, 507656033328106900000, 373891410096356600000, 646936937542215400000, 184588748462158430000, 386402043541900530000,
  730260534915278100000, 629855164310968350000, 389217751652308050000, 597734687861926000000, 565989264783380800000, 966722583306628000000,
  447160586475658500000, 647264270076712300000, 285540893116306370000, 1094019150887916700000, 839746528820234000000, 515944799308683800000,
  367286548284627170000, 850407502326059900000, 193340216702536920000, 849165250326204200000, 415848547961341300000, 1288610165793448000000,
  1288610165793448000000, 700556867153378000000, 455451541430372700000, 1080666011625464400000, 793734176755631200000, 1178748936926637100000,
  674621710570822500000, 559308397816169800000, 259003162312120100000, 1005288831387826300000, 994166267876804000000, 554851391439588400000,
  776213767853122150000, 825137266970484400000, 577377421322356900000, 886074996719933000000, 450679217388162900000, 1178748936926637100000,
  445294246212825200000, 584819569448729750000, 576727540887240200000, 1288610165793448000000, 955389714775927600000, 248362829643657100000,
  558562884366668100000, 253648701557129800000, 1219295447737453500000, 747000125573006000000, 628623115872164300000, 779235145712771800000,
  781719745571424900000, 615986825557573300000, 880856421402876000000, 830113417926390800000, 975060744200533000000, 222456909326056400000,
  644356149146628200000, 1024704432831922100000, 922254001180483300000, 824171075879310800000]

def transE7 : List Nat := [
  280173873213960030000, 497672580619607400000, 651755450339193500000, 608857674593304700000, 538994736873720500000, 381237359769475550000,
  852519310659326600000, 1161053753883694400000, 638950626624898100000, 468445130317008300000, 695538742054383200000, 546957598058305000000,
  450721547631083100000, 864655396359753300000, 289340801244431500000, 509268164485888100000, 867934378642052500000, 703325255633838800000,
  589268780696930700000, 817252618405207300000, 713889874547337500000, 873415202291551800000, 572686702153749000000, 823039356637262100000,
  451298868822215100000, 1016361855590061800000, 654636147781265800000, 561657611153037450000, 699418016345828800000, 109927348395858430000,
  759190479835054000000, 1208054116808267900000, 406514778922512000000, 970099503395250600000, 1069424680696279000000, 632860365153943150000,
  396144033044519300000, 1047110325564857900000, 794697589270729750000, 806596157432944000000, 522492164352107100000, 273327766194586450000,
  957910521634346800000, 956284469547168700000, 549990203079773000000, 788786070513971700000, 973873536193535300000, 712049766010248400000,
  947047137534067400000, 467553194536464640000, 1129208380771841000000, 503302394672538340000, 632733381009895500000, 690892145458060000000,
  951559181062114200000, 266618298123078160000, 561377455327775400000, 430107420062435400000, 1368997908051678000000, 762852216158876300000,
  608657974077611000000, 707928303579902100000, 731665929093976700000, 366365461802158900000, 711211772279573300000, 437988387540360500000,
  839166171396874300000, 168075499966114060000, 570347414196278500000, 1149275450318056000000, 1005239292079039400000, 748340315379185200000]

def transE8 : List Nat := [
  468663776922611050000, 514211329790893600000, 730159754726230850000, 701391547481052800000, 562762111369063700000, 395755857944010200000,
  556699649187420200000, 770706265537047300000, 437485814519526900000, 840020983593041800000, 576115250631516000000, 493447393313069150000,
  770706265537047300000, 345856741332111400000, 473664818980077200000, 770706265537047300000, 840020983593041800000, 701391547481052800000,
  600231456313204800000, 840020983593041800000, 333761480290345160000, 609762474293637300000, 645429968687510500000, 701391547481052800000,
  186062388031274860000, 840020983593041800000, 468663776922611050000, 730159754726230850000, 390040016560015350000, 840020983593041800000,
  770706265537047300000, 490370227446393800000, 227771702641603200000, 545577085676397700000, 840020983593041800000, 424132675257074600000,
  448818683050227200000, 701391547481052800000, 660845036670236300000, 272688656875892570000, 645429968687510500000, 255377106087269420000,
  506800532575521400000, 487384931131425700000, 361271809314837220000, 840020983593041800000, 112296210929893440000, 562762111369063700000,
  545577085676397700000]

def transE10 : List Nat := [
  649828214947643400000, 511198778835654300000, 366506880542021800000, 313098631948996000000, 649828214947643400000, 511198778835654300000,
  271409251555817250000, 649828214947643400000, 229358953008546800000, 345375971175301100000, 580513496891648800000, 580513496891648800000,
  649828214947643400000, 649828214947643400000, 280940269536249780000, 649828214947643400000, 649828214947643400000, 470652268024837900000,
  393333279201489730000, 649828214947643400000, 283472050334678730000, 580513496891648800000, 580513496891648800000, 320244528347210500000,
  539966986080832450000, 430105757214021440000, 393333279201489730000, 372569342723665240000, 430105757214021440000, 430105757214021440000,
  430105757214021440000, 580513496891648800000, 146784422808399830000, 511198778835654300000, 580513496891648800000, 511198778835654300000,
  441884060779659800000, 401337549968843400000, 243783913893001450000, 455237200042112100000, 355384317030999330000]

def transE12 : List Nat := [
  433738477882390800000, 593008475076324500000, 699262098295754500000, 507581417182940300000, 441353817718187700000, 346221584659892120000,
  906421934717635500000, 453397477521232200000, 574098350698391200000, 541844313347992500000, 568727196773766000000, 336398482573583960000,
  788556435083470900000, 178390962354331340000, 402483463979411400000, 734817169968399700000, 630341858068861600000, 351977459292373300000,
  639007069774982650000, 569369597269901500000, 846951223942966200000, 525270752334459800000, 681292754856986000000, 380250113307664830000,
  1252995524997608200000, 923411838397175300000, 520151789708092000000, 509984111141428100000, 726209709091275400000, 203809786927725420000,
  795524427147269900000, 427334790534992400000, 1183680806941613600000, 1092051733754198200000, 626275470143471900000, 430579173733822100000,
  1073819578074802700000, 790498243669181100000, 1183680806941613600000, 684978264095901400000, 400538930423043100000, 267613074245905440000,
  897460718848666900000, 1058404510092076800000, 491811285039566500000, 738246077316262900000, 906421934717635500000, 564342360744557150000,
  760270156481887700000, 419909163675133800000, 1058404510092076800000, 434935430238163350000, 523557795068726100000, 580013117948660600000,
  931107942510788000000, 306118140590724150000, 503330281180779900000, 349230298582561540000, 1183680806941613600000, 1252995524997608200000,
  760270156481887700000, 548243802861878600000, 855966333642396000000, 811111464217948400000, 207747961257961400000, 665502451912405100000,
  716866308426665600000, 982190504887387100000, 234268070095705800000, 612969780466726100000, 1183680806941613600000, 958551627080964200000,
  714088352015958100000]

def transE14 : List Nat := [
  444265125649031700000, 29951653009878370000, 374950407593037130000, 305635689537042600000, 444265125649031700000, 283321334405621600000,
  224542667915409700000]

def transE15 : List Nat := [
  471147680000632000000, 581338398457128200000, 834906295973270600000, 624264483035466700000, 346602432274115800000, 315871367224957600000,
  924984950507089500000, 1071618657386432200000, 489610364351196000000, 338076991237696320000, 679751902571750750000, 458351185820481700000,
  437055021303572660000, 762514412050600700000, 278814097298954500000, 380610067954390270000, 736045156627892450000, 649667886868821600000,
  514023747071800600000, 762514412050600700000, 636376040896673200000, 831829130106595100000, 552322972297411200000, 770392499835912050000,
  372808094222852660000, 986888871347712000000, 568357237304929100000, 436297662600450200000, 576979354849642000000, 246009844004941320000,
  973535732085259700000, 556097005095695900000, 710526866122009800000, 620899679623643500000, 476034920439949200000, 904221014029265100000,
  770392499835912050000, 1112165168197248700000, 690952408409400200000, 360821524821168000000, 281209785533449350000, 863674503218448600000,
  800813637276211300000, 491709391940379600000, 716083851237490900000, 851896199652810400000, 628536977502100850000, 629333794467018600000,
  469516322451479600000, 464853288839879400000, 529417773497373600000, 568574865247188650000, 932989221274443100000, 335163955960868030000,
  531802387234656900000, 309091675787394540000, 1181479886253243300000, 694726441207685000000, 426308664718112150000, 745809003584284000000,
  740807961526817850000, 163686646432654340000, 402534429644575900000, 255044390225001070000, 761010624314146600000, 264872390685426450000,
  578652034230173400000, 1071618657386432200000, 941690358973406200000, 479550220881738700000]

def transE16 : List Nat := [
  203688192726104000000, 313549421592914970000, 313549421592914970000, 313549421592914970000, 203688192726104000000, 244234703536920430000,
  313549421592914970000, 203688192726104000000, 174919985480925900000, 313549421592914970000, 244234703536920430000, 313549421592914970000]

def transE17 : List Nat := [
  481738115028041100000, 571856911396881000000, 764539066646160050000, 509296281579810500000, 527872671678303300000, 396908999455452440000,
  1186489837163770700000, 503186663885150700000, 678972455640388000000, 369245155329492870000, 613479858866413250000, 410571093312991100000,
  780445536109128800000, 118832093586843080000, 474042010914428300000, 849760254165123300000, 703658463433540600000, 422237423740480500000,
  603595275402750000000, 505035547437774900000, 1117175119107776200000, 597325415981193600000, 735403886512085800000, 515072784172823500000,
  915684817053549700000, 576010513922272250000, 453580463539111540000, 657159354691321500000, 176621416983831980000, 750818954494811600000,
  299944554588408470000, 1186489837163770700000, 1186489837163770700000, 868684454128976200000, 473640242595767100000, 1076628608296959800000,
  828137943318159700000, 530812001547966500000, 388077641293478000000, 330694718774930200000, 929994901417617100000, 1076628608296959800000,
  440325797942913200000, 830955031014829400000, 1025546045920360600000, 528703701391666050000, 719206953717580100000, 407089928213371200000,
  358089906738918100000, 504270098101721700000, 674093439223444900000, 1186489837163770700000, 357084873153567940000, 377265896491349650000,
  533547953337548200000, 599843031470441100000, 449655868532632700000, 856906150563337800000, 825398045899348400000, 307189328034017600000,
  690907131403644700000, 785756518640523600000, 843091116715256000000, 284076710318267200000, 565229227588618900000, 1076628608296959800000,
  1007313890240965300000, 805823588186738800000, 1186489837163770700000]

def transE18 : List Nat := [
  91629073187415500000, 160943791243410030000, 160943791243410030000, 160943791243410030000]

def transE20 : List Nat := [
  428199430821244500000, 563135541428665300000, 778197323443438500000, 520698615153933600000, 364877582831190940000, 343032130853376630000,
  949495182580932500000, 1028340918617359500000, 484359225735185900000, 1189284709860769600000, 481282059868510500000, 572323636611623950000,
  448856798057042700000, 423273277943376700000, 722940800449562800000, 198746134878848730000, 418309023415353100000, 763016722156638050000,
  678085931025115200000, 447166957001230200000, 667791134099871000000, 598205045456716800000, 918479689750548500000, 511976672295216000000,
  733897020700715500000, 359854748975046060000, 889711482505370400000, 579252814658763200000, 440735549057694100000, 591649618930976200000,
  224683577646628270000, 912025837636791400000, 1189284709860769600000, 387323430420742800000, 845885989412254900000, 684299109135815900000,
  458430430106850600000, 1079423480993958700000, 825526093888131000000, 649468439708994300000, 328563040454387000000, 281649536663483000000,
  949495182580932500000, 839633953714121600000, 415348789591859700000, 774971237221616250000, 918479689750548500000, 602637904167439850000,
  668884041153090000000, 433328760259999600000, 1189284709860769600000, 406840116773007700000, 524645658375996600000, 601791636775566550000,
  981340555692786000000, 302007956869675900000, 484359225735185900000, 314501849011895300000, 742693897995311200000, 456703959601192300000,
  724845619946632300000, 721071587148347600000, 199940988192506900000, 466736562582540100000, 409555582506022300000, 781530965470197600000,
  259339755155973700000, 643752598324999400000, 1050655273748780500000, 1010108762937964100000, 523355317892405800000]

def transE21 : List Nat := [
  366356164612964630000, 297041446556970130000, 146633706879342700000, 366356164612964630000, 366356164612964630000, 366356164612964630000,
  158412010444981060000, 366356164612964630000, 227726728500975600000, 366356164612964630000, 256494935746153670000, 297041446556970130000,
  227726728500975600000, 366356164612964630000]

def transE22 : List Nat := [
  343129818523509740000, 600682118067551800000, 711024012050314800000, 456097975640363450000, 473922297904461400000, 394441582614824960000,
  887733902790925100000, 1103682327726262400000, 438121134144500100000, 1305172629780488900000, 517850924294214600000, 491872607922127500000,
  534331563054752050000, 399617013962957170000, 814645151936645800000, 124284185863445670000, 413642835268677900000, 817271944618706800000,
  670258730642509000000, 444542393131687500000, 670084058109014900000, 553257634013506500000, 886207155577846400000, 604186579588559700000,
  660046629804369500000, 427494191410339600000, 1305172629780488900000, 1037757764837836000000, 570346056897178600000, 452053158675283700000,
  803114067285546400000, 228679498303408500000, 922308490131579400000, 413683138889832100000, 1154764890102861400000, 888506107400316100000,
  545458088714051800000, 350277312470838130000, 1117992412090329600000, 736814653046620600000, 1134697820556646300000, 605596014150003800000,
  1374487347836483400000, 443242788345149700000, 308158527471424000000, 913970329237674200000, 918052528689699800000, 402831809518034300000,
  705776487049831900000, 834219609649255400000, 593655042797377800000, 764904891593260850000, 427609963429599300000, 1195311400913677800000,
  258404772540154100000, 460517018598809100000, 603198251687470400000, 1235857911724494300000, 923401397184798400000, 346816856527066180000,
  453024232497149450000, 408722252769059200000, 1374487347836483400000, 701624486528013150000, 566711591462791400000, 839776594764736500000,
  804109100370863300000, 335066097376971770000, 575159115026324200000, 629421268215329400000, 856308992807274900000, 258918025545223340000,
  572296069937912400000, 1010728731863844800000, 882489255253670800000, 628093687389590800000]

def transE24 : List Nat := [
  410208154472425300000, 625190388316588800000, 741505469297156950000, 513949827236544300000, 501111710571723600000, 389262344649529760000,
  430005899859076100000, 569228809523046600000, 447061571380512900000, 559050540092052400000, 491909820699698400000, 833134542484572400000,
  115751482716586530000, 491909820699698400000, 942995771351383500000, 741505469297156950000, 450633379640720800000, 703206244071546400000,
  613412084750950550000, 942995771351383500000, 619127926134945400000, 817719474501846700000, 448475022474003400000, 526329248971210700000,
  608005362623923000000, 651218698142955500000, 227027708179203550000, 741505469297156950000, 333076046660297000000, 1012310489407378000000,
  638543527579041100000, 387120101090789100000, 698761067814463000000, 648551873434739350000, 463416716791709300000, 321135759382210500000,
  942995771351383500000, 320144670992265100000, 851366698163967900000, 851366698163967900000, 599597050902868800000, 902449260540566900000,
  459765195494199600000, 223928167918162700000, 513267230729504300000, 659674436945761800000, 1012310489407378000000, 384458346990793500000,
  486560952204599800000, 427378011412692100000, 873681053295389000000, 590359718889767300000, 782051980107973400000, 817719474501846700000,
  277002297355834730000, 772520962127540900000, 631644240430345950000, 1012310489407378000000, 292866804297344530000, 640953282736947200000,
  1012310489407378000000, 817719474501846700000]

def transE25 : List Nat := [
  397808073967693600000, 566511002885322000000, 722640542329932500000, 518063661993147200000, 419034282981771100000, 349447590362001040000,
  974741161797736800000, 1182916529941558500000, 473057541992539000000, 1402638987675180400000, 589104292784509600000, 1581814934597985800000,
  576848568328612900000, 567489714111328500000, 1373870780430002200000, 431542574349422700000, 802126900319633600000, 156818526684407570000,
  417603063454895600000, 785747673759174200000, 649707293240901100000, 462730418018386400000, 656983904275204700000, 582450121373577400000,
  908118238797800400000, 556467415980485400000, 687125382209141100000, 423762130887441900000, 1342025407318148700000, 1020137824831328800000,
  568081571899638500000, 482077733001585100000, 592002615594288200000, 195768167489498260000, 783539164396874600000, 1232164178451337800000,
  344326262701423150000, 1194694833507196700000, 897120620639447900000, 649144917288748100000, 446356332145834300000, 1084833604640385800000,
  801267472070900200000, 1167501461958832600000, 635277923382714400000, 326915388504731200000, 284379885657722400000, 843851719337030600000,
  956048175809722000000, 329921311055074760000, 739307144347142700000, 907881271862268400000, 605157031071119000000, 557722573573303800000,
  413935357365750700000, 1146144051929026700000, 400258177004356950000, 486751825315081400000, 588685209280446400000, 1351556425298581300000,
  960554325022834000000, 302036718444358000000, 460990292030635800000, 408861362526894900000, 1245085351599338500000, 1581814934597985800000,
  751439693041644600000, 443940691447736500000, 851094703121512100000, 775005971970161500000, 260417535099287760000, 619848465556979100000,
  701984562749487900000, 813982298947297300000, 256783964344514540000, 618502798813028050000, 1033335241248920300000, 915374032562945100000,
  612587677389266700000]

def transE27 : List Nat := [
  485106776264218450000, 577305194640607850000, 893792404005195900000, 621725537499053800000, 494735395033205000000, 348492552215666550000,
  1000836545175337200000, 1050084193685116700000, 505371279240805400000, 535255496230768800000, 1359188439020948300000, 655222404034740700000,
  593177007103555450000, 424047857795469700000, 806245530269806000000, 221592478031241200000, 309294517958686300000, 673017304972875200000,
  501793286497463700000, 429408274246330550000, 753276119462768600000, 581367291569699000000, 829356702366144600000, 600204287802682500000,
  803120275919395400000, 444416438021496800000, 1289873720964953700000, 927439627667317300000, 500311500030402400000, 454535790347151550000,
  635698596989465200000, 209901878561702660000, 1064744541104304300000, 515438396770249300000, 1102693503274794700000, 954883312237493300000,
  625234669480180800000, 439371781916500900000, 1025967988003427900000, 677953929603200400000, 1164597424115417000000, 616593073313194200000,
  355325424373106100000, 274977726031613660000, 843859279571170400000, 849201796238528500000, 417762406188684900000, 599248305679366760000,
  958455120497701300000, 479721098882606200000, 677405381875533300000, 419133696716535550000, 1081929566796970100000, 326103978314909160000,
  404972545029343400000, 433599720327733000000, 1359188439020948300000, 907009581316044200000, 265315042462706470000, 388703071995961440000,
  415377119853542800000, 825434631050816500000, 1025967988003427900000, 589068420935203600000, 362584466301639000000, 717678743103788700000,
  749605982777725800000, 272112786103457000000, 543767169529525400000, 721006837280338400000, 672912647715808200000, 202182273386844540000,
  454925286265940900000, 1064744541104304300000, 695593783452283600000, 638699188000480960000, 1289873720964953700000, 1220559002908959200000]

def transE28 : List Nat := [
  472230191263197100000, 521419952651244200000, 798678824875222400000, 565141333293518800000, 442196144330826700000, 308398565945918350000,
  977854771798028000000, 488070791802936700000, 506004884668518400000, 539652108330639700000, 516342720113902000000, 382530438369249470000,
  783263756892496600000, 214276085658469470000, 272064978056842200000, 488070791802936700000, 611498607185063200000, 440326931029611400000,
  584672208525595300000, 588672741986965200000, 839225335686038900000, 577121453274780800000, 977854771798028000000, 424121345096174300000,
  816910980554617800000, 475466719713400300000, 433181034631396860000, 673402528025685600000, 192533132982420700000, 908540053742033400000,
  497452667324702300000, 977854771798028000000, 634456051349513300000, 443144018726281000000, 798678824875222400000, 655967189311207800000,
  450043305874976200000, 316114474000580170000, 908540053742033400000, 977854771798028000000, 403875480580104450000, 532420042172677100000,
  908540053742033400000, 575319602724513000000, 769910617630044300000, 416541961159220900000, 977854771798028000000, 379209571269584120000,
  488819858975852600000, 515357490469600800000, 278186622980374040000, 408481557917757950000, 395254761059982850000, 604087809969691050000,
  451585752907539400000, 783263756892496600000, 678281544442628800000, 235796881256947840000, 575319602724513000000, 908540053742033400000,
  839225335686038900000, 223898888867924900000, 499105597519823300000, 908540053742033400000, 908540053742033400000, 648271085197595000000]

def transE29 : List Nat := [
  410314976838454900000, 616977062163532300000, 782481904532147600000, 590789643313941500000, 491609814875711500000, 372382994038070740000,
  1053286924642368700000, 470392362881347900000, 488919069583719100000, 610205244758037300000, 587415829350756500000, 404747094321993200000,
  851796622588142100000, 176297370145169490000, 265471390992036230000, 711514256281032100000, 353710309011883600000, 374333459882898060000,
  721868324175116100000, 478826477724723000000, 928010627792831900000, 603863062114287700000, 651648622567129800000, 461532038226587300000,
  943425695775557700000, 517864424793735400000, 474443929770720100000, 693555698583524100000, 212014807660416030000, 1053286924642368700000,
  481255746981627500000, 1053286924642368700000, 1012740413831552300000, 681929717971937900000, 455905963455442500000, 1012740413831552300000,
  630603550115550700000, 1122601642698363200000, 674867961250542500000, 389823588856200050000, 315386111879538200000, 818149398926021000000,
  833564466908746700000, 438546989769494500000, 635081910378248000000, 943425695775557700000, 420493246269449200000, 622880415321951600000,
  398751958608926670000, 1122601642698363200000, 307554851535962830000, 407688482842622500000, 484759024333204550000, 1053286924642368700000,
  310216216387771840000, 388453257462047100000, 427233221611309500000, 761509851433940700000, 531251342134536100000, 440490895472716700000,
  767066836549421800000, 928010627792831900000, 297252839863772700000, 594790176775311400000, 761509851433940700000, 756245478085398600000,
  243361868462672600000, 530981436437619700000, 1122601642698363200000, 769965590236747000000, 684398979230975000000, 1122601642698363200000]

def transE30 : List Nat := [
  453334578120318500000, 641735082401123900000, 863265313276741600000, 486264086501697600000, 534152606906945150000, 446333033041847200000,
  1192105502028422700000, 1353049293271832600000, 357631226586668040000, 679590127274537900000, 444040113333831950000, 575437745561958500000,
  1283734575215838100000, 420673459370658700000, 864769101013195600000, 127881614538313730000, 369544483340471960000, 796981130170279900000,
  533681626676308600000, 219337429157280850000, 563096846068612900000, 461130732267289700000, 1089143560310306700000, 681027277758303200000,
  771636240089326000000, 482251410609600500000, 1113259765991995600000, 432395979908509800000, 430359047244316500000, 690775660876848700000,
  250847609167373080000, 961846992729018000000, 1353049293271832600000, 431805476265999700000, 1082244273161611600000, 1064012117482216300000,
  750221441248762800000, 464893444407935100000, 1096554357525679000000, 771338177275512200000, 652379770588128600000, 369887739241999400000,
  375705711954247200000, 994697399426221700000, 1113259765991995600000, 394734839487354100000, 693744839857589000000, 968034533100826900000,
  497119856528345400000, 750462695889301200000, 405678879594157000000, 1353049293271832600000, 317985465058692760000, 443489023821256700000,
  539426737780986600000, 1089143560310306700000, 342202579949566000000, 460903535377044400000, 492951021557240600000, 1192105502028422700000,
  1353049293271832600000, 545833762453007700000, 413417104311670250000, 913604377804588800000, 864014380449657300000, 291646042244583330000,
  749740671091952600000, 688800613135107000000, 846789789969136000000, 307205761338131640000, 622664970744062300000, 1058605395355188600000,
  856067963314232600000, 777792029389269300000]

def transE31 : List Nat := [
  497247952844385500000, 526088180258323050000, 797471236660093900000, 426008041638458850000, 523527585167805800000, 388109270473678740000,
  1111020658253009000000, 544032565954956900000, 728156518604099400000, 486603968186635300000, 606035057528055200000, 1111020658253009000000,
  377980137068568700000, 734900646683652700000, 126742490511135600000, 484111029882382750000, 854525722506855200000, 677947324224375800000,
  353154973193532660000, 351834486764015600000, 470994913722126800000, 456055584029627900000, 950076867009598800000, 529906558955338900000,
  1111020658253009000000, 583209192329957200000, 407758232150208300000, 653549560402670600000, 175871393079802290000, 840215638142788000000,
  389423157987862330000, 1111020658253009000000, 903076504085025400000, 561303835723688800000, 1041705940197014400000, 360857212464667580000,
  346480888310145560000, 329419274337106140000, 1041705940197014400000, 1111020658253009000000, 483356309318844500000, 1111020658253009000000,
  972391222141019900000, 635661639142372400000, 891298200519387000000, 355482463828981600000, 460143744555840800000, 614039328295408900000,
  717838094980576400000, 304180362396039000000, 413479265507413700000, 544724610239414400000, 847114925291483100000, 742132712841615300000,
  432236160022051000000, 972391222141019900000, 1111020658253009000000, 284250091776766340000, 880762148953604300000, 972391222141019900000,
  972391222141019900000, 356270489971512200000, 781436971652576000000, 1041705940197014400000, 880762148953604300000]

def transE32 : List Nat := [
  494902787359990000000, 625349221647215800000, 884375938191798400000, 469835964889560000000, 510949692195623050000, 432820135461958100000,
  1119513463908146300000, 412738862379038450000, 660001478894687200000, 538100410725639600000, 635094755262287200000, 364027611804078700000,
  786293012890625850000, 117146692628922940000, 389028250166167750000, 801708080873351700000, 580150709272910100000, 391134306268197300000,
  590686760838692800000, 333186791507188900000, 1009652235041335200000, 596402602222687600000, 754447639778772400000, 502239074475797000000,
  1078966953097329700000, 584802710836399300000, 457706343522177900000, 662559163073652300000, 233463547146544700000, 911569309740162700000,
  1188828181964140800000, 389263821535413660000, 1050198745852151700000, 705199991268992900000, 448157108946376800000, 1188828181964140800000,
  719693393741226400000, 1188828181964140800000, 612309071685656300000, 363583572939445500000, 357688354120476700000, 1027884390720730700000,
  1078966953097329700000, 347467294448174100000, 689784923286267100000, 884375938191798400000, 473444801806256500000, 639522037630085900000,
  404130083750262000000, 1050198745852151700000, 331754786129714050000, 406543652936163500000, 561918553593514600000, 1009652235041335200000,
  331982533428762900000, 420257875840686000000, 467010498123800000000, 1009652235041335200000, 654117428892393900000, 410505780330537100000,
  776114743459631650000, 830476288118529700000, 302764077786753200000, 680687745465694400000, 702074736918582500000, 855607730946620400000,
  285062955549094130000, 593763926705368100000, 918023161853919800000, 815061220135804000000, 704409473318281600000]

def transE33 : List Nat := [
  579034236085030950000, 856293108309009200000, 856293108309009200000, 856293108309009200000, 636570650575387200000, 467111078497946400000,
  856293108309009200000, 746431879442198100000, 626034599009604500000, 626034599009604500000, 599798172562855500000, 224576639634280700000,
  746431879442198100000, 346918088228332880000, 471278348138003300000, 786978390253014600000, 636570650575387200000, 746431879442198100000,
  269081329361467500000, 856293108309009200000, 856293108309009200000, 489936943696044500000, 626034599009604500000, 616503581029172000000,
  254677392339173770000, 746431879442198100000, 677117161386203700000, 523072657291488700000, 786978390253014600000, 579034236085030950000,
  324972510404830400000, 856293108309009200000, 592387375347483200000, 551840864536666850000, 459263916953797000000, 315128503123505150000,
  451987981525554100000, 648348954141025500000, 592387375347483200000, 332648912026014200000, 463110545036576600000, 353249316169765600000,
  398822010458670830000, 786978390253014600000, 503657055847392950000, 746431879442198100000, 856293108309009200000, 234035481501872230000,
  530483454506860900000, 177734343808216180000, 484935901638578300000, 195493045779400430000, 503657055847392950000, 435823846369912500000,
  500758302160067700000]

def transE34 : List Nat := [
  370768693872600100000, 517160349803089800000, 744601771405824750000, 426046889330611300000, 647041040502767300000, 393737865053444100000,
  492921770049429300000, 574887422120504100000, 446992141502111500000, 515601140327106100000, 336683379206682800000, 590557267311109800000,
  126720951976724280000, 370768693872600100000, 705924473896223500000, 597011119424866900000, 343038572601108130000, 462018447729965300000,
  496924591447652300000, 952545925573808300000, 584494805129466300000, 641441613567309800000, 295426510621689900000, 993092436384624700000,
  805912218694465600000, 469625702437466700000, 353594104596078400000, 854463000272635800000, 182571749752844000000, 798501421479093400000,
  340467355552743140000, 711751364708621100000, 423103835946917000000, 811176592043007700000, 656939223857652350000, 569923624011327000000,
  462596245457954200000, 977677368401899000000, 516165316717773000000, 720089525602526200000, 785148282216641100000, 536831379227695200000,
  901463363197209200000, 400089205625676700000, 1172268383307430300000, 411579930185467300000, 531086556536440600000, 560458663503295450000,
  1102953665251435700000, 1011324592064020100000, 354939039410807440000, 518165383388440000000, 318216481635456800000, 769733214233915300000,
  679543014791709800000, 863164137971598700000, 932478856027593200000, 473796751295603700000, 465366040649604300000, 808509767334791700000,
  901463363197209200000, 330332400200682800000, 640947785403251500000, 1062407154440619200000, 923777718328630300000, 908362650345904400000]

def transE35 : List Nat := [
  370315281917697540000, 654326274229225200000, 664644697852748200000, 491056796769388450000, 497383016447185100000, 413472907128882600000,
  357637384068658950000, 570440375055091300000, 538133817420981500000, 592121148341603650000, 364962833876127100000, 886565046258247800000,
  125173306596290020000, 446873521541484500000, 937647608634846800000, 606836912775232500000, 420032635377463850000, 764187503096036100000,
  604427157617326400000, 868332890578852300000, 643203710718202700000, 435699117697523000000, 443960694249182100000, 528213152412636700000,
  447367349705542800000, 725621255014837700000, 214905568906149900000, 592121148341603650000, 420032635377463850000, 1047508837501657700000,
  721699183699509600000, 408317126162397600000, 753064939585013700000, 631620529165690600000, 411724610850847750000, 321316128231382650000,
  937647608634846800000, 449115209432938740000, 817250328202253200000, 886565046258247800000, 513275412305176600000, 839564683333674100000,
  373220773922467460000, 332517153888446870000, 506344232316153800000, 627039575562561200000, 1047508837501657700000, 312843321184003860000,
  420788782647521500000, 492601229012135800000, 937647608634846800000, 691974031352716400000, 552632848463840900000, 937647608634846800000,
  827786379768035700000, 272878771278513800000, 839564683333674100000, 717925150901224800000, 1047508837501657700000, 254812483015359930000,
  598645200528443800000, 937647608634846800000, 908879401389668700000, 691974031352716400000]

def transE36 : List Nat := [
  69314718055994530000, 69314718055994530000]

def transE38 : List Nat := [
  354661150451217900000, 560599800440872800000, 669442583279095800000, 516119452916750100000, 489241164608102600000, 347823705295205400000,
  834015374663025900000, 1245647721557113600000, 540519895983682300000, 1355508950423924500000, 481219603272710700000, 607353380232972800000,
  527564601652657900000, 380527774430716370000, 786473004991518400000, 149788236304738700000, 452591136133717000000, 806202806089869600000,
  696616302670572550000, 504451818913189400000, 740023141022282700000, 618927666702977200000, 912427270539593100000, 591112755523671500000,
  788866281612681200000, 391530711477344930000, 1194565159180514300000, 947755206033352600000, 503410351458431100000, 462023916394948000000,
  671027402503098200000, 202282230248027700000, 902249001108598800000, 404501497878713940000, 1072187616018302800000, 872677576693694400000,
  618422933770252800000, 396180233558550000000, 1055935723068525400000, 780569651833099100000, 1286194232367930000000, 657315482708285600000,
  501691790643781600000, 251021757119113800000, 883659063294415000000, 922435616395291400000, 563609701607399850000, 768579259110547050000,
  803763660777453700000, 636592176581892200000, 903330092719020400000, 426852910635165300000, 1216879514311935400000, 344808984233813430000,
  531312294400744200000, 633033609847127400000, 1355508950423924500000, 968388849333135400000, 327838459114507300000, 462976808729535900000,
  389731069267747400000, 1286194232367930000000, 1355508950423924500000, 757115322355205400000, 549202659291245250000, 755863741562022400000,
  748666391599513400000, 255109146575192700000, 581268748242346240000, 720071946344189400000, 857835576181867000000, 218625383329842400000,
  645341353261980100000, 1033621367937104400000, 932098299964198600000, 544256174076060700000]

def transE40 : List Nat := [
  510594547390058000000, 510594547390058000000, 441279829334063500000, 302650393222074450000, 510594547390058000000, 441279829334063500000,
  510594547390058000000, 510594547390058000000, 510594547390058000000, 510594547390058000000, 510594547390058000000, 316003532484526730000,
  510594547390058000000, 510594547390058000000, 441279829334063500000, 233335675166079960000, 441279829334063500000, 510594547390058000000,
  349650756146648020000, 510594547390058000000, 349650756146648020000, 216150649473414000000, 441279829334063500000, 510594547390058000000,
  510594547390058000000, 254099611643904400000, 349650756146648020000, 117411984117625480000, 510594547390058000000, 270805020110221000000]

def transE41 : List Nat := [
  299385551354113100000, 697041704010684800000, 668273496765506700000, 523581598471874200000, 598958778709512200000, 424038793228586300000,
  567113405597658700000, 373829598848862700000, 587180475143873900000, 536097912767274700000, 477319246277062900000, 76720698663702570000,
  289287959620112870000, 612311917971964450000, 627726985954690250000, 366231008151070460000, 645959141634085700000, 567113405597658700000,
  806902932877495800000, 668273496765506700000, 806902932877495800000, 576644423578091200000, 417720903066433100000, 298143299354257400000,
  473682481859975400000, 550407997131342100000, 281675590072832760000, 645959141634085700000, 424038793228586300000, 697041704010684800000,
  404367763803980800000, 502450689105153450000, 806902932877495800000, 523581598471874200000, 485015350390675700000, 417720903066433100000,
  443144316904857200000, 440546768264531200000, 368700269410107630000, 481093279075347500000, 806902932877495800000, 645959141634085700000,
  806902932877495800000, 737588214821501250000, 737588214821501250000, 806902932877495800000, 299385551354113100000, 576644423578091200000]

def transE42 : List Nat := [
  411669849610169800000, 595928730053738850000, 741924679669401400000, 504954386722990900000, 476263489106711600000, 341658264622565970000,
  991245224929671000000, 1152189016173081000000, 513416944559997400000, 530129999163107100000, 585028658543884400000, 555446219245106900000,
  394323331113604740000, 807190261589922300000, 163214662698694100000, 449457564769103350000, 820770415705828400000, 697859537946080600000,
  468509397168916700000, 763006986362018300000, 635996542008832800000, 686317920881468900000, 625145799867230900000, 648169606539301000000,
  422853240373676000000, 981714206949238400000, 476379565730307900000, 537128739328453100000, 707923890524049300000, 184120246957738680000,
  1001781276495453600000, 384333245762312360000, 957598001267549700000, 981714206949238400000, 562886568743608100000, 433121412739860200000,
  1111642505362264500000, 768243784913749900000, 1111642505362264500000, 656959044464751800000, 437511798227817300000, 278684740746147240000,
  812069278006865500000, 899616151742255500000, 465704238375995000000, 733984001908960300000, 907954312636160500000, 638903723491030500000,
  815459433174433600000, 415386598259983400000, 394144554409112360000, 503649185852705550000, 633450435589005500000, 1221503734229075500000,
  812069278006865500000, 357121149994115200000, 526710027367578600000, 383733612969311680000, 689691734844653850000, 526614011997744300000,
  824474542873863400000, 732468821406900200000, 227449488180361600000, 573806497940107300000, 728778365713355000000, 764032636378737300000,
  196230236164469130000, 616059799602138500000, 991245224929671000000, 881383996062860000000, 652467788796669450000]

def transE43 : List Nat := [
  441155928669190000000, 593113321822146500000, 798669038703075800000, 537395036573287300000, 501789099583635500000, 359535407533881000000,
  985849256393235000000, 1225638783673072000000, 372509452093570100000, 1134009710485656400000, 598351083018455300000, 1185092272862255700000,
  496882719642099600000, 582184131794326700000, 1294953501729066600000, 332794629245059100000, 586866712059988300000, 173926990795293120000,
  373560110980435270000, 714440004837417700000, 642891388973196950000, 365522121153830430000, 578018500062006600000, 533177544068216050000,
  1087009347561083000000, 560159119414197800000, 698338827816697400000, 385741527670191400000, 1294953501729066600000, 870103977524130700000,
  511950693475682600000, 338558439274859500000, 578018500062006600000, 207805652129486560000, 791258241487703600000, 435427029045427300000,
  1055163974449229500000, 1046462836750266600000, 718434391450582050000, 448132200809614640000, 1115777554806261100000, 823103614599557000000,
  1294953501729066600000, 691884975702940250000, 468646018148806800000, 261976717026578760000, 907833400638277500000, 965369815128633700000,
  400864394950520350000, 747307146535915500000, 990501257956724300000, 527120866078377900000, 901770938456634000000, 335822716880671870000,
  981404080136151600000, 431118670431796100000, 393180899159387000000, 561847471207203300000, 1294953501729066600000, 1005916325939450000000,
  322738950143499200000, 468285657398477000000, 344205741409194670000, 1100362486823535200000, 646185099880605500000, 542984261317412600000,
  762652503815225700000, 768684482838578000000, 266197624933404550000, 566129061627054100000, 824000481597833100000, 933861710464644200000,
  263228355383167800000, 602197711101234800000, 1024148481618845500000, 977148118694272000000, 711765254000714900000]

def transE45 : List Nat := [
  359155256021576300000, 540474731016388300000, 709214676406769600000, 500262110332123400000, 339117851263475500000, 293284147255313470000,
  931677031559202900000, 1070306467671192000000, 548270885163359500000, 491616729534521200000, 585887759025332850000, 509726261041592300000,
  412659510766369600000, 632103804203803850000, 210613651727682870000, 417656981714113000000, 775862569754547950000, 655992995032038700000,
  445502180220349100000, 669573149147944950000, 584325227235024800000, 683186366580402900000, 493787357392707500000, 621442830697978000000,
  309667728693926800000, 821815802692392000000, 558507086429516500000, 389845015664929600000, 611809719804134800000, 222087709449449780000,
  960445238804381000000, 474463998368213800000, 891130520748386500000, 540975985198742750000, 404120993616660850000, 748418885184371900000,
  1070306467671192000000, 667771298597677100000, 429288979474575250000, 247355355774746300000, 862362313503208400000, 806400734709666100000,
  578308375088379500000, 765854223898849700000, 1000991749615197400000, 604910432655439700000, 862362313503208400000, 442079792981591350000,
  1070306467671192000000, 437512789298272500000, 541479764601738500000, 623715655805733600000, 770733240315792900000, 302520117603370940000,
  551567887087116500000, 269237313758161840000, 799501447560971000000, 615976989444191600000, 786985133265570400000, 813811531925038300000,
  262966170772551470000, 500262110332123400000, 527371904775747900000, 223632302879178060000, 578308375088379500000, 1070306467671192000000,
  909362676427782000000, 563416047449168800000]

def transE52 : List Nat := [
  389896021699304550000, 566419668153600400000, 724124187231385300000, 498302865773616200000, 433801169038220000000, 387455226797490450000,
  1003216870050430700000, 1131699360145933800000, 494316498979445600000, 1241560589012744700000, 568836327865062300000, 1426143258062577800000,
  539508599466965850000, 549016580793158900000, 1296214959649551800000, 353068225058576160000, 702509323787143500000, 160399985513656950000,
  401908279264943400000, 742481532947698050000, 638239346147544700000, 374488777854046800000, 607952566269645900000, 551016908620640900000,
  935369170969215500000, 564898981730244400000, 720353464321392200000, 1536004486929388900000, 356696056052198430000, 1169648322316424100000,
  895316488322457400000, 518431888579983200000, 434226854870464200000, 717052275854579500000, 208133436886784030000, 804615803766042600000,
  1305745977629984200000, 375989638306559160000, 1108337875027783200000, 885575669575724200000, 698579868719758300000, 439710174329084400000,
  1124917100512057600000, 783872688909464800000, 1195884748763173300000, 680094227480044100000, 1466689768873394300000, 384375507004823320000,
  343503624391392000000, 882916724156800300000, 924194767125254000000, 421734285909361900000, 732314809660881850000, 863982471415859300000,
  562072466297167200000, 662403748472467000000, 403113840095381900000, 1167116541517995100000, 393027277844069400000, 467308965699776900000,
  577696921383245950000, 1296214959649551800000, 962670359239614200000, 304583107764452400000, 480202103532547000000, 337085416990889140000,
  1231552243157046400000, 1356828540006583200000, 742947901505992300000, 527648829501709900000, 660604193579962650000, 606224322154771040000,
  272234891090356830000, 305024303800123730000, 611491667183204200000, 511371257063126300000, 268146236274217000000, 613688699360709040000,
  1039720023903398000000, 916360074149936700000, 586437519044952200000]

def transE53 : List Nat := [
  330641602925837700000, 672540295248403100000, 698776721695152150000, 603225577192408600000, 535852667722124100000, 362739182980962170000,
  929035230994556800000, 665129498033030850000, 734444216089025400000, 651776358770578600000, 665129498033030850000, 342105539681179300000,
  240177985038020440000, 680544566015756750000, 859720512938562300000, 665129498033030850000, 859720512938562300000, 859720512938562300000,
  734444216089025400000, 929035230994556800000, 474705752767556350000, 709312773260934800000, 619930985658725100000, 929035230994556800000,
  76538938126496940000, 819174002127745700000, 234819560424609800000, 929035230994556800000, 734444216089025400000, 433452525234430650000,
  440000318172381400000, 388318053848544850000, 629462003639157600000, 929035230994556800000, 929035230994556800000, 929035230994556800000,
  427971701584931200000, 567943439730134300000, 698776721695152150000, 768091439751146700000, 413129701073103800000, 535852667722124100000,
  615485809401641800000, 658230210884335800000, 749859284071751300000, 768091439751146700000, 292732420640510240000, 416045359502249400000,
  537832930451742100000, 734444216089025400000, 289676155599493560000, 734444216089025400000, 859720512938562300000]

def transE55 : List Nat := [
  225129179860649530000, 294443897916644070000, 316758253048065040000, 386072971104059540000, 247443534992070500000, 108814098880081420000,
  455387689160054100000, 276211742237248600000, 455387689160054100000, 386072971104059540000, 386072971104059540000, 345526460293243100000,
  386072971104059540000, 455387689160054100000, 455387689160054100000, 345526460293243100000, 345526460293243100000, 316758253048065040000,
  386072971104059540000, 455387689160054100000, 386072971104059540000]

def transE56 : List Nat := [
  423566433676516200000, 552439245395404500000, 749117622615211150000, 516887624055223900000, 404307248901353800000, 378951526988822130000,
  1064929584159924000000, 1359373482076568000000, 505988118845633600000, 1359373482076568000000, 663623744988872900000, 561131847393794650000,
  1359373482076568000000, 568204430005734200000, 459189572336683800000, 806430573325425600000, 102987235300459880000, 487458085730313950000,
  828052884172389300000, 700480834323216100000, 476202290294410300000, 674679168118030100000, 608330426438767400000, 1102878546330414300000,
  574753600526825450000, 812567467963055000000, 443890715871975600000, 1359373482076568000000, 1001021588230957000000, 608439955474908900000,
  491170538689650800000, 693315967092599500000, 222588137168950600000, 810067337742513200000, 306870350652929960000, 1290058764020573500000,
  927624670722937000000, 827561482692146400000, 491340289197226200000, 1180197535153762400000, 896876200748141000000, 702285185842609600000,
  311335304449385660000, 335699449423531250000, 860330223398694500000, 1054921238304225800000, 366443333333657240000, 828052884172389300000,
  951619737685996000000, 608330426438767400000, 665254476569730500000, 449869307315296000000, 1220744045964579000000, 416137152514399040000,
  500906991423443100000, 699386432155284300000, 1198429690833158000000, 330087766728627450000, 520847430061026800000, 435024985019719500000,
  1220744045964579000000, 1290058764020573500000, 816438919181123900000, 458771624586311950000, 733224313644463800000, 692296849991980600000,
  252165814787769500000, 494691786155593700000, 753695080753705600000, 659157886636205900000, 320212748199919960000, 704694941000515700000,
  1119583954796731000000, 978707233099536100000, 688687248416293300000]

def transE57 : List Nat := [
  494164242260930500000, 632793678372919500000, 632793678372919500000, 563478960316924900000, 424849524204935900000, 471849887129509400000,
  453617731450114000000, 522932449506108550000, 632793678372919500000, 209383027913193540000, 225039933982347540000, 303209991772486600000,
  632793678372919500000, 203747734258080370000, 632793678372919500000, 632793678372919500000, 632793678372919500000, 247778918201913620000,
  632793678372919500000, 471849887129509400000, 384303013394119470000, 632793678372919500000, 632793678372919500000, 319244256780004540000,
  563478960316924900000, 355534806148941350000, 522932449506108550000, 563478960316924900000, 402535169073515000000, 274441784527308500000,
  563478960316924900000, 471849887129509400000, 494164242260930500000, 438202663467388100000, 274441784527308500000, 522932449506108550000,
  632793678372919500000, 277258872223978100000, 338349780456275440000, 333220451017520400000, 453617731450114000000]

def transE60 : List Nat := [
  460395732956288200000, 671417052990947200000, 810046489102936300000, 671417052990947200000, 267551487354795950000, 275813063906455150000,
  579787979803531700000, 480462802502503300000, 740731771046941740000, 443690324489971600000, 407511320029421300000, 649102697859526200000,
  240673275222666260000, 292431515845553300000, 810046489102936300000, 671417052990947200000, 476826038085415900000, 810046489102936300000,
  671417052990947200000, 810046489102936300000, 469926750936720700000, 810046489102936300000, 284819146298273250000, 810046489102936300000,
  590324031369314300000, 355717010875935860000, 810046489102936300000, 260329666573616070000, 515602591186292200000, 460395732956288200000,
  740731771046941740000, 405741362319481300000, 590324031369314300000, 590324031369314300000, 338196601973426800000, 233214389523559000000,
  810046489102936300000, 649102697859526200000, 579787979803531700000, 740731771046941740000, 553551553356782600000, 515602591186292200000,
  400612032880726150000, 561555824124136200000, 466647768654421700000, 327215115372706130000, 561555824124136200000, 212411398173142850000,
  602102334934952700000, 553551553356782600000, 615455474197404900000, 740731771046941740000, 630870542180130740000, 740731771046941740000,
  740731771046941740000, 740731771046941740000, 252451578788304600000, 579787979803531700000, 700185260236125300000, 466647768654421700000]

def transE62 : List Nat := [
  378471845948197700000, 698058652610505000000, 706226455711931700000, 610839111409611900000, 510727718991288700000, 435847875480356400000,
  1091241215882937600000, 586898704191012900000, 496961278370267500000, 706226455711931700000, 577074860232671600000, 366390808645876500000,
  860982706583533000000, 192434072075674180000, 477468510474314100000, 930297424639527500000, 710574966905905600000, 558453599003979500000,
  912065268960132000000, 692342811226510200000, 842750550904137600000, 666391691678001700000, 827335482921411700000, 497487595374694900000,
  981379987016126500000, 571391512756355000000, 548746214134797300000, 813982343658959500000, 208553081469874260000, 871518758149315600000,
  510426966884893100000, 981379987016126500000, 450223727686320900000, 440066682918464700000, 722353270471543900000, 1091241215882937600000,
  555111999311995100000, 422032841632274700000, 368329828103607370000, 871518758149315600000, 786788972110595300000, 548746214134797300000,
  744667625602964900000, 1091241215882937600000, 653038552415549400000, 715121204313581300000, 447626179045994800000, 399371693980890400000,
  479211473987842500000, 615023822403162000000, 1091241215882937600000, 930297424639527500000, 366818464322602540000, 501800932456452500000,
  424164583798350100000, 744667625602964900000, 510426966884893100000, 758020764865417200000, 786788972110595300000, 151046018315214560000,
  540302382220139900000, 241440178682991200000, 681806759660727500000, 214726573719035400000, 552791709604028600000, 952611779770948500000,
  860982706583533000000, 683487471492365600000]

/-- jieba/posseg/prob_trans.py: the values for the states with 'E', times -10^20, in the order of the states that `trans` lists. -/
def transValuesE : List (List Nat) := [
  transE0, transE1, [], transE3, transE4, [], transE6, transE7,
  transE8, [], transE10, [], transE12, [], transE14, transE15,
  transE16, transE17, transE18, [], transE20, transE21, transE22, [],
  transE24, transE25, [], transE27, transE28, transE29, transE30, transE31,
  transE32, transE33, transE34, transE35, transE36, [], transE38, [],
  transE40, transE41, transE42, transE43, [], transE45, [], [],
  [], [], [], [], transE52, transE53, [], transE55,
  transE56, transE57, [], [], transE60, [], transE62, []]

def transM0 : List Nat := [
  15225895278450224000, 195733628434470620000]

def transM1 : List Nat := [
  64003735524599700000, 74923664721098890000]

def transM4 : List Nat := [
  3697100476728258000, 331604987922687440000]

def transM6 : List Nat := [
  36188985247543620000, 119190941331661930000]

def transM7 : List Nat := [
  1486459073564585500, 421619644387245100000]

def transM10 : List Nat := [
  0]

def transM12 : List Nat := [
  0]

def transM15 : List Nat := [
  70266194109448510000, 68372209809821870000]

def transM16 : List Nat := [
  69314718055994530000, 69314718055994530000]

def transM17 : List Nat := [
  14026125751410626000, 203355951590782170000]

def transM18 : List Nat := [
  0]

def transM20 : List Nat := [
  61034934084062760000, 78342443945287020000]

def transM21 : List Nat := [
  69314718055994530000, 69314718055994530000]

def transM22 : List Nat := [
  24867623061733957000, 151336628794869800000]

def transM24 : List Nat := [
  2018159473732382800, 391305806827123530000]

def transM25 : List Nat := [
  14378203809805257000, 201048653137276960000]

def transM27 : List Nat := [
  3395240783783845500, 339972367689752500000]

def transM28 : List Nat := [
  2481249191199816400, 370878864009741400000]

def transM29 : List Nat := [
  43009105470816617000, 105110828125559340000]

def transM30 : List Nat := [
  41538716750484356000, 107905871559463800000]

def transM31 : List Nat := [
  106193992192463020000, 42431826412433127000]

def transM32 : List Nat := [
  61291227907674750000, 78038574332166950000]

def transM33 : List Nat := [
  43913545259227216000, 103449296686595840000]

def transM34 : List Nat := [
  0]

def transM35 : List Nat := [
  58879115565072560000, 80967602002846280000]

def transM38 : List Nat := [
  122558422081519900, 670495036324678200000]

def transM40 : List Nat := [
  0]

def transM42 : List Nat := [
  3870645471484391400, 327103970792537350000]

def transM43 : List Nat := [
  3909808166302630000, 326116722299774900000]

def transM45 : List Nat := [
  0]

def transM52 : List Nat := [
  2741220765591975000, 361044162439871870000]

def transM55 : List Nat := [
  0]

def transM56 : List Nat := [
  571932927259216100, 516676204219196000000]

def transM60 : List Nat := [
  0]

def transM62 : List Nat := [
  26948841622684950000, 144294990908823650000]

/-- jieba/posseg/prob_trans.py: the values for the states with 'M', times -10^20, in the order of the states that `trans` lists. -/
def transValuesM : List (List Nat) := [
  transM0, transM1, [], [], transM4, [], transM6, transM7,
  [], [], transM10, [], transM12, [], [], transM15,
  transM16, transM17, transM18, [], transM20, transM21, transM22, [],
  transM24, transM25, [], transM27, transM28, transM29, transM30, transM31,
  transM32, transM33, transM34, transM35, [], [], transM38, [],
  transM40, [], transM42, transM43, [], transM45, [], [],
  [], [], [], [], transM52, [], [], transM55,
  transM56, [], [], [], transM60, [], transM62, []]

def transS0 : List Nat := [
  488226815617031800000, 726639576964248000000, 809423645800712400000, 593815692478208200000, 457501489836177200000, 451889036130688900000,
  1003088728164964200000, 1207858012501489700000, 570696827778304100000, 660421081468650150000, 1346487448613478800000, 585550794818057600000,
  616507711937662700000, 364032192168680200000, 839597028391455600000, 152137512691564880000, 400837740853539400000, 831158289163701000000,
  674949109980010700000, 460764399193284100000, 821785041397430200000, 594247425474766300000, 933774010108969700000, 678905126449994000000,
  628328254152292300000, 490903767112634600000, 1089992512867325100000, 573601866228224500000, 507710684215900800000, 754061868872025600000,
  285836368236850800000, 904603387833819000000, 433390204954217800000, 910816565944519700000, 690101895960266000000, 344859410612353750000,
  1097996783634678800000, 604011272431157800000, 909542663366776700000, 646271853173116600000, 412922392319315800000, 336619028433540060000,
  863656074883248700000, 902222322964447000000, 487183198243511200000, 562024184167010700000, 813215569286941800000, 482493282945949700000,
  646636484388418700000, 408016072721382450000, 963623308964569200000, 250350983766263370000, 338554465540246300000, 472198101462265000000,
  1277172730557484200000, 902222322964447000000, 352679228883416050000, 352630940698596350000, 424161788889205800000, 1126764990879856800000,
  1236626219746667800000, 680814796195639600000, 547599223282556000000, 513040293153384500000, 674465433099949200000, 259062695601372670000,
  371862571002515140000, 567417845496005000000, 599010230373691800000, 201883696670619100000, 490538838252829900000, 835288669777824400000,
  641388503906674300000, 513136377715184600000, 1346487448613478800000]

def transS1 : List Nat := [
  597211181859216700000, 637757692670033100000, 707072410726027640000, 637757692670033100000, 450577474979874000000, 637757692670033100000,
  597211181859216700000, 637757692670033100000, 707072410726027640000, 429813538502049600000, 707072410726027640000, 418035234936411200000,
  458581745747227650000, 423751076320406000000, 512481395820496300000, 597211181859216700000, 707072410726027640000, 381262756923879480000,
  512481395820496300000, 568442974614038600000, 637757692670033100000, 266400485999602350000, 707072410726027640000, 707072410726027640000,
  377488724125594780000, 512481395820496300000, 546128619482617600000, 458581745747227650000, 328653447334201540000, 707072410726027640000,
  568442974614038600000, 326406161748995700000, 597211181859216700000, 568442974614038600000, 637757692670033100000, 412628512809383600000,
  381262756923879480000, 385184828239207600000, 467282883446190700000, 261637681100676900000, 306339092202780570000, 429813538502049600000,
  568442974614038600000, 487349952992405700000, 707072410726027640000, 418035234936411200000, 597211181859216700000, 637757692670033100000,
  97040515524021260000, 294358972221518520000, 458581745747227650000, 707072410726027640000]

def transS2 : List Nat := [
  457717540592760300000, 689628980087285900000, 960434000197507000000, 606338067793775500000, 522858298031478250000, 484644872896931400000,
  1029748718253501500000, 600702774138662300000, 621994973862929500000, 683175127973528800000, 671396824407890400000, 488138678033059400000,
  891119282141512400000, 239610982874239880000, 329169816328151200000, 789959190973664300000, 456738739956144000000, 489031541107489500000,
  590303802786257600000, 850572771330695900000, 716199296660586400000, 789959190973664300000, 522231336730118740000, 960434000197507000000,
  610783244050858900000, 534872729215684600000, 765842985291975600000, 314757034640290600000, 919887489386690400000, 559700681674259800000,
  789959190973664300000, 638546417710686850000, 336406415680429930000, 960434000197507000000, 347528979191452400000, 1029748718253501500000,
  577569860548597400000, 960434000197507000000, 431607297128053350000, 327819052881997000000, 773253782507347800000, 789959190973664300000,
  458706016516014400000, 347747081786088400000, 891119282141512400000, 415760263030875900000, 529354087658955500000, 471775735654879200000,
  765842985291975600000, 223002451552495670000, 231917621266729300000, 387586491472849650000, 640566688442438800000, 401335302146421200000,
  349731711423281450000, 409292941996632400000, 835157703347970100000, 458706016516014400000, 465558011159690100000, 689628980087285900000,
  773253782507347800000, 369897815392049900000, 525406206561576800000, 604899194048565600000, 665990102280862800000, 183855889925075270000,
  361412623676873950000, 436789803914511900000, 493151116751316300000, 960434000197507000000, 1029748718253501500000]

def transS3 : List Nat := [
  452798054729696200000, 647389069635227400000, 427666611901605500000, 390894133889073800000, 578074351579232900000, 578074351579232900000,
  537527840768416500000, 262374309464221600000, 427666611901605500000, 647389069635227400000, 647389069635227400000, 452798054729696200000,
  578074351579232900000, 248490664978800040000, 578074351579232900000, 647389069635227400000, 647389069635227400000, 358351893845611000000,
  578074351579232900000, 508759633523238450000, 647389069635227400000, 358351893845611000000, 239635325244655500000, 376584049525006500000,
  427666611901605500000, 537527840768416500000, 452798054729696200000, 537527840768416500000, 239635325244655500000, 278501124223833860000,
  427666611901605500000, 383483336673701600000, 358351893845611000000, 376584049525006500000, 578074351579232900000, 390894133889073800000,
  647389069635227400000, 289037175789616500000, 537527840768416500000, 647389069635227400000, 172030050524591020000, 390894133889073800000,
  452798054729696200000]

def transS4 : List Nat := [
  555015797216284050000, 842560407984233000000, 905421273926470200000, 610321635955210300000, 620640059578733450000, 549174721000642600000,
  952421636851043900000, 1113365428094453900000, 610321635955210300000, 672693503368028600000, 638872215258128900000, 619918034781384700000,
  520140909349652900000, 934189481171648400000, 80804117940713950000, 484393871003554200000, 1113365428094453900000, 703930971872243800000,
  503109568633097000000, 685698816192848400000, 640626646223219900000, 1113365428094453900000, 813792200739054800000, 883106918795049400000,
  527572112646108000000, 1113365428094453900000, 659035949867453600000, 656930608947670300000, 842560407984233000000, 295277333894814960000,
  1044050710038459300000, 389228799762222130000, 1113365428094453900000, 791477845607633900000, 434806663593660900000, 1113365428094453900000,
  732699179117421900000, 377737440439379100000, 503333532892447500000, 394373211019873130000, 893642970360832000000, 1113365428094453900000,
  417901541606355100000, 553153546006483850000, 766791837814481300000, 524201006911876800000, 680292094065820850000, 470393480290540200000,
  934189481171648400000, 221206321738056000000, 358457157013225340000, 552418248575958000000, 836106555870475700000, 353225194636080570000,
  426672099648265800000, 516239244115407650000, 1113365428094453900000, 676420642847751800000, 550963677475720100000, 830044093688832300000,
  1003504199227643000000, 373242301653152440000, 799816006501539000000, 813792200739054800000, 842560407984233000000, 224241785142847700000,
  586579612188121100000, 905421273926470200000, 682958918774036900000, 773245689928238400000, 1003504199227643000000]

def transS5 : List Nat := [
  241591377830104870000, 402535169073515000000, 292673940206703960000, 263905732961525900000, 402535169073515000000, 333220451017520400000,
  402535169073515000000, 223359222150709420000, 292673940206703960000, 333220451017520400000, 263905732961525900000, 402535169073515000000,
  333220451017520400000, 402535169073515000000, 138629436111989060000, 292673940206703960000, 333220451017520400000, 402535169073515000000]

def transS6 : List Nat := [
  374988876584352300000, 575121218010872200000, 683918607057177600000, 451397528214227300000, 492573196281210700000, 386342707379439430000,
  894543886970226900000, 495163553670204600000, 1208093308563141800000, 597168550286705300000, 512557882785000300000, 497391719579840400000,
  398754719657121000000, 739188141566262500000, 132481370933169920000, 334512658898750330000, 822020337459082400000, 624466142792913900000,
  325284190871339840000, 561829372038723800000, 508470915866167300000, 1069463872451152800000, 530471119661113100000, 716460847100640400000,
  372121275303974500000, 1098232079696331000000, 930834436339163700000, 516372264787852700000, 430062999772304500000, 938969000284559000000,
  189798781310470120000, 806005567529119000000, 338179340775130970000, 1277408026619136400000, 1346722744675131000000, 710075699901987200000,
  414624055468806300000, 1057685568885514400000, 706531025002412300000, 1006603006508915300000, 654065041352858400000, 1277408026619136400000,
  597002022354799160000, 298155220771354400000, 966056495698099000000, 1277408026619136400000, 502088599630702300000, 660971338420591900000,
  667825570375913900000, 547326989917774400000, 728928333270070900000, 423414758780563700000, 1042270500902788700000, 377150234349108900000,
  515019397025890600000, 553918184587653250000, 1346722744675131000000, 1047149517319731900000, 309846618341815550000, 517768796212716800000,
  344942954803777000000, 1106933217395293800000, 1346722744675131000000, 745107028705295600000, 666483268342699800000, 720573576243026700000,
  732519004116395300000, 623956494802265500000, 921873220470195000000, 790654581573578150000, 848362082504297300000, 253529974352407400000,
  549925426708837400000, 938969000284559000000, 859203012355015800000, 955520444132316300000]

def transS7 : List Nat := [
  324746087326552500000, 518036877292572300000, 723313152650566150000, 614156427676076100000, 585447153739744500000, 338446209711401420000,
  741482925296123200000, 1175025083437101800000, 690493952070014700000, 1438930816398627700000, 529696335024780200000, 762889347290284900000,
  548277924639175900000, 444669605676610000000, 890866924064428600000, 355833280148277800000, 490020033694788700000, 927732037562973500000,
  726322089068715300000, 628793349275769600000, 930171182875389300000, 756602204163059000000, 871255436171799500000, 600359133535842600000,
  697172776157173300000, 480581928537847300000, 1155609481993006100000, 696038096918400500000, 580221584519037300000, 673533898350750300000,
  155270071524026800000, 778672027179694000000, 1125381394805712700000, 525844399351189100000, 937202832717135300000, 863991517807802400000,
  651077396784591600000, 284959472225966600000, 1077839025134205300000, 671422630626994400000, 768244582738353000000, 1438930816398627700000,
  570677003998320200000, 267198984846678500000, 765590627214891800000, 999485900931383900000, 523226308906831900000, 692766777177770300000,
  858417319506979000000, 665474931963152100000, 843347079452144600000, 398993605155345850000, 1244339801493096300000, 425332096521191400000,
  550608393370728200000, 659654644316975200000, 920752461369419200000, 253748483517999770000, 508647977257494300000, 481030499042603500000,
  1208672307099223200000, 1134478572626285400000, 687997289796968600000, 602363578021128200000, 528244120048637100000, 580109748533475900000,
  599225077381002100000, 647871755172979900000, 818273223726135000000, 700718379824876400000, 113703293660573880000, 491745003957899300000,
  1070042870987234100000, 831166592063724300000, 827341603850324200000, 1277987025155217700000]

def transS9 : List Nat := [
  308477618393731050000, 597514794183347500000, 697367677194460300000, 822643974043997000000, 628052959138465700000, 465690704395860000000,
  712782745177186100000, 587506448327649300000, 753329255988002500000, 684014537932008000000, 614699819876013450000, 298734173355190500000,
  418338847260542050000, 574153309065197000000, 614699819876013450000, 712782745177186100000, 891958692099991500000, 891958692099991500000,
  558738241082471200000, 753329255988002500000, 592385464744592500000, 307894526362651700000, 592385464744592500000, 652169164820154550000,
  167750456174295360000, 390230708418499140000, 891958692099991500000, 782097463233180600000, 518191730271654700000, 326010470524029430000,
  661700182800587000000, 891958692099991500000, 562375005499558600000, 470007921582380900000, 753329255988002500000, 423745569387569600000,
  822643974043997000000, 289130840076921740000, 332487554139807660000, 385699188797294900000, 402174712104900400000, 891958692099991500000,
  324626365382842300000, 394285317857934100000, 434487594249653200000, 712782745177186100000, 301150398283098500000, 518191730271654700000,
  822643974043997000000, 476070383764024400000, 587506448327649300000, 570071109613171500000, 731014900856581500000, 161171414023620940000,
  381972049317571700000, 381972049317571700000, 533606798254380500000, 891958692099991500000]

def transS10 : List Nat := [
  507593572003258850000, 718006987430279600000, 878950778673689600000, 699774831750884200000, 445877444645056500000, 319852080622604000000,
  718006987430279600000, 684359763768158300000, 608145758563468700000, 542221195675042300000, 454101254468753800000, 437066717894029900000,
  740321342561700600000, 264962323451064100000, 323267972503735870000, 671006624505706000000, 608145758563468700000, 561145395638895100000,
  622455842927536000000, 659228320940067700000, 601691906449711600000, 286525198932236470000, 769089549806878650000, 622455842927536000000,
  413554743657937300000, 809636060617695100000, 288961043315440500000, 615045045712163800000, 769089549806878650000, 639161251393852600000,
  361902379169874470000, 878950778673689600000, 557063196186869550000, 684359763768158300000, 595629444268068000000, 296646189125387800000,
  277091457224066200000, 622455842927536000000, 402733385193914000000, 487748478130875000000, 809636060617695100000, 481921587318477500000,
  403591759563053200000, 431217097225869000000, 402733385193914000000, 718006987430279600000, 430087141700475700000, 445877444645056500000,
  165541406554403060000, 648692269374285100000, 608145758563468700000, 769089549806878650000, 878950778673689600000, 507593572003258850000,
  328824957619216950000, 493936018502683800000, 584506880757045600000, 245978688121420000000, 481921587318477500000, 878950778673689600000,
  502830767104333400000, 321735375455913200000]

def transS12 : List Nat := [
  451893800504129750000, 556856839336835900000, 863088627168164600000, 529517503669723200000, 482952011426274900000, 347041874232137640000,
  939185604858035300000, 1233629502774679300000, 559538173471022500000, 554357655875301400000, 553131102680060200000, 576447879422421000000,
  329252098062005900000, 555788942079250500000, 228333916917713650000, 400655654523625900000, 786656281265380650000, 652615253709968300000,
  400816607399190300000, 647931470801860600000, 585471789847036200000, 813658994986686700000, 552138629913100850000, 739465260513748900000,
  409108555306423900000, 1343490731641490200000, 954308701830427700000, 552468360931755900000, 494159706546199700000, 707533344774252500000,
  187264897742602040000, 859072022995631100000, 1233629502774679300000, 458639801552682300000, 1043917504286091200000, 1029941310048575400000,
  624272525770165700000, 434166271631496800000, 1049046833724846200000, 738517386118294500000, 1182546940398080300000, 624876301189257800000,
  469441058648309100000, 261935796133465630000, 889161253414490000000, 996917141361517700000, 424293460179690600000, 633735846580011050000,
  924525257438847700000, 471444680368924800000, 759426565904150500000, 401771538990148800000, 1135546577473506800000, 320622516716722300000,
  436647619062141300000, 535839198886257400000, 847908025881364200000, 313090019816362500000, 412020692911447700000, 377661722472440080000,
  1095000066662690200000, 672316692135872350000, 522641556467452200000, 729934242533316450000, 756278952693948700000, 244268947506511600000,
  453326838411457700000, 759426565904150500000, 817221712751001700000, 192935899578372380000, 514964618234595500000, 898056002016139500000,
  810703114762532300000, 729072168228925750000, 1343490731641490200000]

def transS13 : List Nat := [
  547626696413336300000, 722211673205734000000, 897613587330254800000, 649122922351454800000, 560501594687767000000, 453610241935431000000,
  1048021327007882200000, 579346309709830800000, 660901225917093100000, 777216306897661200000, 724153481791444200000, 495078418256739900000,
  938160098141071200000, 292771354976490700000, 359419248324269120000, 799530662029082200000, 559741134749245100000, 512362699540681000000,
  922745030158345400000, 628301132241701300000, 938160098141071200000, 726133744521062100000, 799530662029082200000, 535327752028640500000,
  1117336045063876800000, 570530030950363600000, 560884004331607400000, 764699992602260600000, 326020526471069960000, 582625291992129850000,
  1048021327007882200000, 693925394604150800000, 355069649931517200000, 750979880450912100000, 437989431805875800000, 560120641846100300000,
  877546517784039700000, 435772046056443600000, 336381912598535700000, 693925394604150800000, 656819026465067600000, 415944497582824000000,
  245616951741563260000, 834014710658255000000, 383317361531865150000, 604939647123550800000, 453610241935431000000, 756244253799454300000,
  215684757564274140000, 245551474574385200000, 355756937860293430000, 978706608951887700000, 600287645560061600000, 366841838224259600000,
  351513292447741540000, 427363734335389500000, 860841109317723200000, 526799860258419700000, 442460090314708850000, 764699992602260600000,
  780606462065229300000, 407333328400950700000, 626808567220033800000, 581677417596675500000, 688290100949037600000, 178629750026911170000,
  324892626575120700000, 897613587330254800000, 342879064128427200000, 565993170447378500000, 887077535764472100000]

def transS14 : List Nat := [
  429491955932540600000, 295439361666109560000, 705703698169789100000, 395095665097503530000, 529344838943653250000, 395844732270419280000,
  567074262057800100000, 433793694440909700000, 523787853828172200000, 487850453737382500000, 457213033190989100000, 815564927036600200000,
  85450146450996910000, 363386069331696100000, 645090117812757600000, 614074624982373600000, 418535735681387950000, 645090117812757600000,
  468991336756627500000, 815564927036600200000, 521121029119956100000, 413926624961361300000, 884879645092594600000, 521121029119956100000,
  472166206588085500000, 815564927036600200000, 407811182646028200000, 705703698169789100000, 326906662493972440000, 620973912131068800000,
  521121029119956100000, 884879645092594600000, 607620772868616500000, 723935853849184600000, 495697615281532000000, 419483610076842300000,
  746250208980605600000, 884879645092594600000, 544759906926379140000, 544759906926379140000, 665157187358972700000, 376120011569356240000,
  705703698169789100000, 455833700977755550000, 318931423516632550000, 354549154286687070000, 475445188870384600000, 411259800253145100000,
  379894044367640940000, 349221017625393400000, 676935490924611000000, 676935490924611000000, 487850453737382500000, 815564927036600200000,
  723935853849184600000, 438288833227136300000, 665157187358972700000, 665157187358972700000, 815564927036600200000, 424362626493785560000,
  477125900702022700000, 884879645092594600000, 690288630187063300000]

def transS17 : List Nat := [
  517247397925947300000, 687283716800434000000, 800960122263682500000, 589334570783427300000, 557306815713304100000, 460840384097466950000,
  1141079860429898000000, 1071765142373903500000, 490875846468021800000, 685692171269844000000, 533545257321029600000, 657849284572714200000,
  473308561832221000000, 946488845524366700000, 194554473291978600000, 330866641466435450000, 794506270149925400000, 464864729917563600000,
  355370473939648820000, 693346178982077400000, 489238905154512400000, 839037371815461900000, 652799668171261000000, 831975615094066400000,
  525064669167284800000, 1002450424317909000000, 509815676560542400000, 526768650758185900000, 758215720780988500000, 287497994875957800000,
  970605051206055500000, 461509282912546700000, 1100533349619081700000, 763803766620434200000, 309596642501442480000, 799307192068561450000,
  581608722469714100000, 1071765142373903500000, 541808483779056700000, 1141079860429898000000, 375801552287990950000, 338937823402244100000,
  791429104283250100000, 946488845524366700000, 365610267157748200000, 471006749475117000000, 677606961606934500000, 255108010454845300000,
  651669712645867600000, 404025315058941000000, 990672120752270600000, 217347556099291100000, 327750474307634700000, 403773821685266200000,
  1210394578485892600000, 755006889325838500000, 353510936029085000000, 352246410356032700000, 457884503873312500000, 863820988205919900000,
  592186087814229500000, 429278239983364800000, 667460015590448500000, 884584924683744400000, 391220576358146840000, 730815523926218500000,
  561019194500724000000, 799307192068561450000, 229548345273190830000, 472743765853270600000, 1031218631563087100000, 533430380800642300000,
  671945072206983700000, 980136069186488000000]

def transS19 : List Nat := [
  443007247428345600000, 573275269536221400000, 813064796816058400000, 466859531077715400000, 451023631332410900000, 305107209152611900000,
  756266393055464500000, 534709021455022900000, 1096386131221680000000, 480476592372486700000, 634874079537554100000, 510023013661870300000,
  401304654377421600000, 856596603941842900000, 166167128661073840000, 486578703005055950000, 825581111111459000000, 707204101410617400000,
  577647550637604500000, 730029966608715300000, 583989733281354100000, 839891195475526300000, 559322328408913700000, 663312797193046850000,
  417827366720887000000, 496244643425565000000, 512321965484340150000, 618473781910527100000, 201009201766734560000, 957756695109690900000,
  471969441155306400000, 1096386131221680000000, 986524902354869000000, 643126181906354400000, 441851165188238100000, 901795116316148600000,
  711371371050674100000, 674435360704069350000, 362237745985363930000, 233960904850715460000, 672975480761954100000, 1027071413165685400000,
  467600275205501600000, 672975480761954100000, 847895466242880000000, 628173008509258100000, 568065758347881100000, 405111849172362300000,
  1096386131221680000000, 396443884470883920000, 485239397271412200000, 650951401596329200000, 888441977053696300000, 289201816260764180000,
  490707729898817600000, 434512232869958000000, 703203567949247400000, 515872634330031100000, 738034237376069000000, 759656548223032600000,
  257495614110209340000, 730029966608715300000, 807348955432063600000, 866127621922275500000, 208188612796793300000, 555221526036176000000,
  1027071413165685400000, 787281885885848400000, 650951401596329200000]

def transS22 : List Nat := [
  468146757907369300000, 624878673588906600000, 834941116733404000000, 511322742875809200000, 525460883988854200000, 475338634681133900000,
  1060346921943342500000, 1244929590993175600000, 430123589737629250000, 1285476101803992000000, 705415435874817900000, 518084046576126600000,
  637165366658272200000, 1354790819859986500000, 431404663158233700000, 671379945978602700000, 169216637784190980000, 403605681623546000000,
  842394421919660600000, 633340378444872200000, 382792289960585470000, 544350689067825300000, 529026324039163800000, 1077531947636008500000,
  604959232783288400000, 552271887670903100000, 1354790819859986500000, 477995628883644500000, 1090885086898460800000, 597078626772318700000,
  427713145781985200000, 765350536433501500000, 230423567061305100000, 950485693076531600000, 472573343765378600000, 1090885086898460800000,
  776101081723315800000, 364417067730853050000, 1115001292580149400000, 729600431543397700000, 1354790819859986500000, 634673731531818700000,
  1354790819859986500000, 453662870742193600000, 369350585375422900000, 988434655247022000000, 1041241398267071500000, 430577850413427600000,
  665729907845269950000, 863525331286381400000, 506138042149451400000, 669249939998993800000, 207154298894144000000, 1077531947636008500000,
  251324436652236500000, 378632989224643100000, 566408498370771250000, 1354790819859986500000, 1071469485454365000000, 320182033129331330000,
  409188031087457900000, 473640494844162600000, 976371856468160500000, 592916582092945300000, 609841019321701600000, 777025587537720950000,
  785754874427580500000, 341192099982550300000, 548075915868976000000, 632315479283189500000, 1014671081693771100000, 213273890242752850000,
  523063043237863100000, 1011392099411472000000, 796817837261364400000, 660093220646444800000]

def transS23 : List Nat := [
  526914598924775700000, 665544035036764700000, 504600243793354700000, 470953020131233400000, 665544035036764700000, 526914598924775700000,
  555682806169953700000, 268514843681552600000, 401638302075238850000, 555682806169953700000, 445821577303142800000, 665544035036764700000,
  445821577303142800000, 665544035036764700000, 596229316980770200000, 596229316980770200000, 596229316980770200000, 555682806169953700000,
  318970444756792100000, 435285525737360150000, 470953020131233400000, 596229316980770200000, 555682806169953700000, 376506859247148300000,
  665544035036764700000, 376506859247148300000, 291777073208427900000, 417053370057964750000, 486368088113959300000, 347738652001970160000,
  504600243793354700000, 196409246813850370000, 198261151590574140000, 318970444756792100000, 347738652001970160000, 332323584019244360000,
  312907982575148620000, 555682806169953700000, 435285525737360150000, 335960348436331820000, 665544035036764700000, 555682806169953700000,
  526914598924775700000, 257790290646192800000, 394739014926543730000, 382222700631143100000]

def transS25 : List Nat := [
  468634040375763900000, 637612317601491500000, 858096598423602300000, 565177153002967450000, 449420747844283800000, 369856286524417040000,
  942691522675193400000, 1114591534169756000000, 476561440857932200000, 1409035432086400000000, 574110652029721100000, 1409035432086400000000,
  596917107878517200000, 591340045263822050000, 423317252120438400000, 845556471769475000000, 213954173453174800000, 383836009405699040000,
  792493646663258000000, 619827589961588100000, 448973016277531740000, 739455540380550900000, 580383294718276400000, 843087210510438000000,
  617976370860752200000, 763988389871982400000, 429925189892266300000, 1047943640821977600000, 514828562781977500000, 480212741023074700000,
  612968171247588300000, 234903511099743460000, 912750969060409300000, 1339720714030405400000, 482922578205571300000, 1125714097680778500000,
  879704949613950800000, 637300304867867150000, 386192503895262670000, 1013911060228257300000, 661842224261887900000, 960171795113186000000,
  590584056783028000000, 1339720714030405400000, 370219006705694340000, 271554215802340650000, 795478942978226200000, 864361694919769000000,
  330330586107663600000, 540663025856013200000, 888086816802258000000, 487413128572966200000, 611616565157798850000, 406398563895205700000,
  993147123750433000000, 256000159657124600000, 338708738105204600000, 465232076287503650000, 1299174203219589000000, 833461210727708800000,
  314311553445102780000, 395104393985658930000, 370570685251763840000, 1099931186750568600000, 609000482553931600000, 440334508177332100000,
  688471914445363700000, 751110310885389950000, 291079193097095300000, 533951294548846800000, 667157343811320700000, 750005327266731500000,
  197131123430692970000, 484619240041230700000, 883285894883621800000, 667457734544860700000, 538618376111761400000, 1339720714030405400000]

def transS26 : List Nat := [
  469787160669498500000, 630436400889932800000, 894568634514544000000, 564281957321285200000, 470128108834760550000, 377754998098234830000,
  909983702497269700000, 1129706160230891700000, 478854088168430800000, 583889553481898400000, 620433441949418900000, 611621482023521900000,
  432195924986716900000, 844443017239559900000, 211410955642939150000, 355973610165719020000, 779050370498893500000, 590192005112534000000,
  444870253328343600000, 730499588920723400000, 563990496899277100000, 882614119449565700000, 620740976789443600000, 779050370498893500000,
  443954753976352650000, 1308882107153697100000, 942525942540732600000, 546566800306006950000, 488633862496043500000, 675022699333378900000,
  236636899775619300000, 1031623234929719000000, 499535879703579160000, 1170252671041708000000, 892993798817730000000, 651235150248874700000,
  374929624117996330000, 909983702497269700000, 577028152296907050000, 1147938315910287200000, 607490559672644450000, 1239567389097702600000,
  381738560020097800000, 283823932421900870000, 767717501968193200000, 855622157838371500000, 337504229422881600000, 451524754668462700000,
  901128362763125200000, 462502865684784900000, 585392265122214000000, 408501298506980200000, 995332685560782200000, 265261920997721570000,
  298292342807354640000, 449078549227663350000, 1239567389097702600000, 825253916458549400000, 305408598239117100000, 371968368781379160000,
  373498659992205970000, 1004429863381354900000, 1308882107153697100000, 605973350738730950000, 431683063500473000000, 728067858155652800000,
  716992721726382500000, 326162078717296300000, 631117447790185500000, 643081002566622300000, 746480356534963300000, 199611908565045300000,
  440104157954520050000, 911852915798485000000, 568758980712395700000, 605531458724927400000, 1147938315910287200000, 1170252671041708000000]

def transS27 : List Nat := [
  522450520862513650000, 694812687268597350000, 986889610776651000000, 620248950950463100000, 537403694259610000000, 423887978334991700000,
  1027436121587467400000, 1137297350454278300000, 541713613507795260000, 619400289562731200000, 628846836188007200000, 680343049619784250000,
  444247873859115700000, 902159824737930500000, 174323224671995720000, 327038707915199330000, 780344080806141300000, 495869521099202350000,
  431035351499973100000, 830492056940916600000, 567755927955709900000, 950117132764119200000, 689563669006457700000, 837724123098879200000,
  503349642407472200000, 1206612068510272800000, 998667914342289200000, 543940293585370300000, 479789766394316250000, 698471632011826500000,
  273728641907875670000, 1067982632398283700000, 562997031673330100000, 1045668277266862800000, 711029362750146700000, 347419114757247360000,
  935807048400051800000, 586764196861042000000, 1206612068510272800000, 518163403305994600000, 1096750839643461900000, 413304091322231400000,
  327737480316459350000, 866492330344057200000, 856961312363624800000, 413196545156640600000, 412767513393794000000, 845520277245850400000,
  400842649028714100000, 644571981938557850000, 430736014094506550000, 877028381909839900000, 250357534465926520000, 314053334607244670000,
  335599575778052060000, 1137297350454278300000, 819491967419483700000, 302609425079622340000, 384976235271657250000, 406812136712299800000,
  929353196286294600000, 1067982632398283700000, 538903722385559300000, 404914293834046600000, 677785365440819300000, 533390997863552200000,
  356160754684386530000, 661508223153702800000, 662370297458093500000, 817430038699210100000, 203235076230367800000, 392755594784109570000,
  1096750839643461900000, 530802618067499750000, 657718295894604200000, 1137297350454278300000, 1206612068510272800000]

def transS31 : List Nat := [
  179175946922805500000, 393182563272432570000, 393182563272432570000, 393182563272432570000, 462497281328427100000, 462497281328427100000,
  323867845216438030000, 49783842823917960000, 462497281328427100000, 462497281328427100000, 462497281328427100000, 352636052461616160000,
  462497281328427100000, 462497281328427100000, 352636052461616160000]

def transS32 : List Nat := [
  0]

def transS33 : List Nat := [
  640390526895257100000, 801334318138667200000, 760787807327850800000, 533919453196014350000, 548761453707841600000, 870649036194661700000,
  709705244951251700000, 709705244951251700000, 801334318138667200000, 676058021289130400000, 341822333125208200000, 870649036194661700000,
  346474334688697500000, 496882074366324900000, 709705244951251700000, 571075808839262600000, 870649036194661700000, 433704250947959600000,
  760787807327850800000, 576205138278017700000, 691473089271856300000, 650926578461039800000, 334990408727460500000, 801334318138667200000,
  732019600082672600000, 451683561992019200000, 870649036194661700000, 541065349594228800000, 732019600082672600000, 606743303233135800000,
  410132017595852600000, 662704882026678100000, 541065349594228800000, 366953775953298800000, 462895291804089750000, 870649036194661700000,
  489982787217629800000, 352470681165453200000, 312299405316491800000, 448698265677051000000, 131384284122499400000, 499291829524230900000,
  394431642714886100000, 400600999615420100000, 732019600082672600000, 676058021289130400000, 640390526895257100000, 760787807327850800000,
  801334318138667200000, 235386096562705100000, 512297142349050700000, 221122480600960900000, 571075808839262600000, 226713999084651900000,
  426383910545630050000, 418470178489757700000, 382368843936024660000]

def transS34 : List Nat := [
  405760152463721000000, 628205247488731800000, 757571061001375600000, 449221055178853500000, 671519597041762700000, 451627689432945500000,
  1294518517087812100000, 1363833235143806600000, 443270305919200250000, 1323286724332990300000, 595423830100921950000, 507884624783157700000,
  1433147953199801200000, 536614495819317300000, 337680328913977000000, 622195387224513800000, 138064496319039250000, 310550307490373500000,
  728657441486864100000, 591565483497006300000, 267207560064905900000, 525158958940589400000, 500211245360018800000, 978818474972800700000,
  706116664591898700000, 644427094618407900000, 308788554626697080000, 1093028215033585600000, 862436926724913600000, 378800826201800420000,
  354383195434211330000, 923161310417381400000, 243980945961922900000, 860463178441081500000, 1363833235143806600000, 405718733161734400000,
  1433147953199801200000, 1184657288221001200000, 672310505761722800000, 413078045679397300000, 1115342570165006600000, 742472475334945800000,
  1133574725844402100000, 623588083061982300000, 560548515098344100000, 456650719931862900000, 932753322605255200000, 1111260370712981000000,
  408305566442854100000, 648763089384554000000, 830320101176731400000, 495545524438089750000, 772482934579979650000, 321573855430472500000,
  1036118761844589000000, 335594614125558530000, 457805934072650500000, 516362921164278100000, 1119598531606886200000, 1002741443879384200000,
  425985386718440300000, 443426159247547900000, 267866169837589200000, 1111260370712981000000, 1272204161956391000000, 601493481406861300000,
  597963279316976700000, 766198144214013200000, 732659754228515150000, 545647204594961500000, 526882743292143300000, 661769491539925700000,
  657400076541383300000, 316988616655602000000, 569277692318457700000, 950316579469571100000, 844537550054785600000, 788575971261243300000,
  1433147953199801200000, 1433147953199801200000]

def transS35 : List Nat := [
  403044853863674800000, 652241752555831500000, 786706718540648700000, 526554777511029400000, 487449780326100400000, 401167022781028500000,
  924289024665908200000, 1006956881984355000000, 454146335926263500000, 530576820717591700000, 595091886672033100000, 570495481364684500000,
  412053967126699200000, 784109169900322640000, 162521261375529780000, 396818274575017950000, 794360726252882100000, 618555343940230800000,
  434024237230407800000, 709306790821744700000, 565937130820297300000, 914379934401485200000, 636533171007529400000, 738399147459339800000,
  408132373536254100000, 1242094407700702900000, 930742876779665300000, 565015465309804800000, 470604351341153400000, 729400832721461200000,
  245961223478646170000, 868327445872365900000, 466282421626690300000, 1132233178833891800000, 861428158723670700000, 631615084459204300000,
  347535080620013040000, 974679542758050000000, 665106180064630300000, 1062918460777897200000, 593783672554982900000, 403842578891739200000,
  316086161313603100000, 827780935061549500000, 783088752882898500000, 362369784030350050000, 546535146861073100000, 898695687252188200000,
  488032254834987500000, 588063583894553400000, 379033291855523400000, 1006956881984355000000, 261253673072116980000, 362961008370567700000,
  503354429174247500000, 873206462289309100000, 326447927800016300000, 374035733868235500000, 346285428565136130000, 1091686668023075400000,
  1311409125756697400000, 623885917029039700000, 499231383840589900000, 721968842330212300000, 745809944674712100000, 323628055182082840000,
  521716660129810900000, 623885917029039700000, 659789818152400900000, 223589313302729600000, 495100488198375800000, 922227095945634700000,
  675278877999397800000, 434567253070957000000, 1242094407700702900000]

def transS37 : List Nat := [
  0]

def transS38 : List Nat := [
  452493307697936300000, 567987590636721500000, 830432653863413300000, 573303527464731000000, 491561276906218100000, 313773767960689250000,
  742479339049516100000, 1117977264631362100000, 510857313118678500000, 1388782284741583200000, 525213576195180400000, 1319467566685588600000,
  692368723499758600000, 558953221305654900000, 299143543563565740000, 782403763872822300000, 226779338753140140000, 462091312395175400000,
  837036995095112200000, 705694861276965100000, 622723738571257450000, 895334891428513800000, 717851850715753200000, 865671423056124400000,
  627104703871745800000, 613162750346771300000, 366843026348418200000, 1319467566685588600000, 914289071905258000000, 476576739030722000000,
  452167602430144800000, 671847283074523100000, 212108496562646300000, 1030430390895972000000, 1209606337818777500000, 517391221892190600000,
  986247115668068200000, 971343557752019400000, 610961137290333800000, 453346871530074300000, 1124876551780057300000, 777857526465146500000,
  1140291619762783000000, 615151575086754600000, 449050510710950000000, 225039033702946400000, 953111402072623900000, 880022651218344600000,
  534593704340922200000, 711818087056332800000, 920569162029161200000, 639952933225640300000, 622676646505400100000, 367043738029702870000,
  1194191269836051800000, 358472060044971400000, 485744681265992500000, 635039281082932200000, 1319467566685588600000, 899747371919407800000,
  298915944816105500000, 344681905586066730000, 375580627128915530000, 1319467566685588600000, 731693988507624700000, 518067067207642750000,
  681794871895725850000, 798792549383333900000, 275769632005485500000, 606858839355676100000, 712163113275548000000, 848966014589807800000,
  171776087274205080000, 593767295976381250000, 974468812102429800000, 831566881523806600000, 556203232152974100000]

def transS39 : List Nat := [
  498360662170833600000, 498360662170833600000, 464713438508712300000, 439581995680621800000, 589989735358249150000, 659304453414243700000,
  589989735358249150000, 451360299246260100000, 246591014909734500000, 272184352323454600000, 659304453414243700000, 266121890141811100000,
  439581995680621800000, 589989735358249150000, 341499070379449100000, 659304453414243700000, 498360662170833600000, 589989735358249150000,
  549443224547432700000, 589989735358249150000, 262275262059031500000, 498360662170833600000, 345755031821328700000, 498360662170833600000,
  439581995680621800000, 429045944114839100000, 402809517668090000000, 370267277624627230000, 345755031821328700000, 382045581190265570000,
  480128506491438200000, 388499433304022700000, 337416870927423630000, 201833355563905400000, 464713438508712300000, 364860555497599600000,
  350200208078412100000, 464713438508712300000, 589989735358249150000, 429045944114839100000, 659304453414243700000, 359731226058844600000,
  659304453414243700000, 276440313765334200000, 359731226058844600000, 659304453414243700000, 520675017302254600000, 549443224547432700000]

def transS43 : List Nat := [
  350655789731998200000, 350655789731998200000, 265926003693277800000, 460517018598809100000, 391202300542814600000, 350655789731998200000,
  460517018598809100000, 299573227355399100000, 460517018598809100000, 281341071676003640000, 460517018598809100000, 460517018598809100000,
  460517018598809100000, 391202300542814600000, 230258509299404550000, 321887582486820060000, 350655789731998200000, 265926003693277800000,
  391202300542814600000, 391202300542814600000, 299573227355399100000, 460517018598809100000, 123787435600161740000]

def transS44 : List Nat := [
  551066842458022300000, 735461364697884900000, 848959357981783400000, 634301273530036900000, 597728795584171800000, 478966428951731200000,
  585850441985175150000, 675499252442972700000, 618700848682378800000, 725283095266890700000, 415739931889182750000, 930052379603416100000,
  278063931675923830000, 356395149855497000000, 710329921869794200000, 561791395493382150000, 135789506935092220000, 614352337488404800000,
  571700485757805200000, 1068681815715405200000, 719031059568757200000, 820191150736605200000, 551633416211590100000, 1068681815715405200000,
  595943033844171200000, 441205613591211400000, 860737661547421600000, 300895465647584200000, 999367097659410700000, 594188602879080300000,
  1068681815715405200000, 742872161913257050000, 371514955242826300000, 999367097659410700000, 666146646641890300000, 1068681815715405200000,
  664376688931950300000, 489992077578734500000, 299653213647728500000, 828892288435568100000, 874090800809873900000, 425387806441487300000,
  535894198836447200000, 804776082753879300000, 498637458376336600000, 667948497192158200000, 458649920513398900000, 930052379603416100000,
  265705963671323000000, 358679099052479300000, 507004705948748100000, 1068681815715405200000, 889505868792599800000, 274090855854092000000,
  361779473057579300000, 443298934557858000000, 1068681815715405200000, 1068681815715405200000, 399101924009556100000, 507734636196909300000,
  675499252442972700000, 812186879969251600000, 411874024574207600000, 418853600767761900000, 710329921869794200000, 860737661547421600000,
  204510909104024740000, 469036606853503200000, 1068681815715405200000, 654368343076252000000, 662637514660763300000]

def transS45 : List Nat := [
  406082093804282900000, 670391324287026600000, 794417604860140350000, 450529201726232650000, 516414228351251100000, 461119544215131100000,
  1107967026453055200000, 587566357745375700000, 631749632973279700000, 1177281744509049800000, 582870659436598600000, 569402906981084100000,
  359221649749604980000, 816189953244627400000, 160862084335401880000, 419877243971829800000, 809651677318342200000, 663408214836692600000,
  466498255439270300000, 772103249728719300000, 622959503544673900000, 1052005447659513000000, 617624905474144600000, 733606591072737000000,
  418550693906788200000, 1246596462565044300000, 1085652671321634300000, 583264619237006700000, 536841577503565050000, 761393436173082600000,
  212939679797317760000, 952152564648400300000, 417291548588199900000, 1026874004831422500000, 756812482569953200000, 381529004285972470000,
  1136735233698233400000, 717769759495590800000, 957559286775428000000, 680300414551449800000, 496212387895149200000, 336443515953244000000,
  762177753919185200000, 1085652671321634300000, 449903112724560400000, 652842842056801700000, 777461674342130000000, 490276403329237300000,
  817550518450205200000, 366569997434010800000, 1177281744509049800000, 229631234724991050000, 294205516027063300000, 567362019817963400000,
  1136735233698233400000, 352900902142521700000, 379125499635922260000, 396003462651291650000, 632177899152479750000, 556422741899387000000,
  680648240989082250000, 723485600879585700000, 480820935451557800000, 658264223716216450000, 388654809105407400000, 489089292614288200000,
  207457213273289300000, 423272712494517300000, 933047040972129300000, 835509076147713300000, 782157372650907100000, 1246596462565044300000]

def transS46 : List Nat := [
  315185931372201940000, 588655976804229700000, 876166405380767400000, 681575390475236100000, 634737497123362700000, 296588266065080400000,
  955012141417194400000, 977326496548615400000, 596106229534021900000, 318124835673832340000, 709911631605962500000, 443572688578483600000,
  377992717399649170000, 775836194494388900000, 275531089420594140000, 394579101848740340000, 769382342380631800000, 629202487615046200000,
  540065755272876400000, 936779985737798900000, 651516842746467200000, 618974602703004400000, 708202188270032500000, 838697060436626400000,
  341715730479026300000, 908011778492620900000, 547258397026622500000, 580770119312997850000, 838697060436626400000, 250539068016272950000,
  612912140521360900000, 1115955932660604500000, 921364917755073200000, 374739899166083970000, 292525969090979100000, 701642460021451200000,
  811503688888262000000, 539436822382120000000, 202426582895277330000, 726773902849541800000, 896233474926982500000, 441785863195399000000,
  688289320758998900000, 1046641214604610000000, 586625450188155200000, 838697060436626400000, 326561418837008550000, 1046641214604610000000,
  318674854248464100000, 486984375569704750000, 585625441854696850000, 675284007934179200000, 346744598701057830000, 473631236307252500000,
  333231842485323340000, 1115955932660604500000, 685549423340187500000, 553193821291540700000, 724753632117789900000, 528744153713062900000,
  479998545793366700000, 362106432719257930000, 775836194494388900000, 547938671758897700000, 191452771483993160000, 610970331935650800000,
  1115955932660604500000, 790146278858456250000, 637206758382399800000]

def transS47 : List Nat := [
  421204879256696500000, 635744830203859800000, 750258060634160100000, 598275485259718800000, 481862795681845100000, 445635893286521900000,
  1014163793595686000000, 528182553159518800000, 564182826562659500000, 630218562336354900000, 597497271215513300000, 222683756183210370000,
  658628987446744600000, 221865197724566430000, 396265701517781900000, 736904921371707800000, 624981763784623300000, 390624729835213950000,
  740079791203165900000, 575961130128297900000, 1014163793595686000000, 655811899750075000000, 733827755505032450000, 292603037773355900000,
  806219639427702400000, 559303810145716300000, 446659793016631300000, 585117849480846900000, 320821491022614500000, 922534720408270600000,
  491589126224365900000, 922534720408270600000, 688354139793537800000, 272315703820906570000, 669165039012527300000, 1083478511651680500000,
  702812262674648600000, 489461386379637400000, 379687915306962300000, 743358773485465000000, 826983575905526900000, 446488413368857800000,
  719719895679041950000, 944849075539691400000, 588602522613863700000, 875534357483696900000, 328939536690498140000, 973617282784869600000,
  282708510363278000000, 447175701297634000000, 492670217834787400000, 1083478511651680500000, 944849075539691400000, 440023859772935200000,
  407321234771275000000, 267169874093359000000, 599059803005821400000, 611628624522171100000, 477099990782919700000, 750258060634160100000,
  284862025618407800000, 254650207130911440000, 722386720387258000000, 525883601337048900000, 265110853389614800000, 609858666812230950000,
  1014163793595686000000, 904302564728875000000, 538374666295110400000]

def transS48 : List Nat := [
  331741725644051040000, 595256905491446200000, 599404684431894600000, 424040704075470400000, 504407602325288600000, 440681760688470500000,
  1129589962060122200000, 1190900409348763000000, 537532706860298600000, 1103996624646402000000, 574974609014860300000, 1308765908982927700000,
  548951041848381500000, 1447395345094916800000, 512428601375188550000, 1239451190926933100000, 343643820452397500000, 754737641772644300000,
  71520373880665690000, 429761831491971300000, 827750932315464600000, 650701995254432750000, 427596959565358800000, 681101560048763200000,
  547186801779344400000, 958360432272741400000, 692539747177929400000, 727203713341754000000, 432520866685371800000, 1190900409348763000000,
  933815501389890600000, 516830289916865900000, 527214940999527000000, 862462867100230700000, 239498716853626100000, 754345868499754100000,
  273996660086905350000, 1114174894077396300000, 669993837369844000000, 401563295865405100000, 1217136835795512000000, 751170998668296000000,
  1086303553830494200000, 608892116313526900000, 1378080627038922200000, 564194951969289600000, 429773250275883300000, 1039641600704344700000,
  1003130219445885100000, 559587419482273200000, 733667501368878100000, 829393679729659400000, 594206871078994000000, 802823363156359000000,
  460754490665446000000, 1207605817815079700000, 311699197552566170000, 541130135187258900000, 592351892575312800000, 1337534116228105700000,
  980112461648726100000, 519231619709095100000, 525882456224118700000, 447388380056679500000, 1170136472870938600000, 1378080627038922200000,
  799390888902251450000, 795628217803689200000, 981051435683710000000, 892877600646960400000, 796518431397748600000, 729160133906390400000,
  765941055368920850000, 994135395779591100000, 340681521356570730000, 650217732806853900000, 945007293010289100000, 909867504326500200000,
  675083335868283550000]

def transS49 : List Nat := [
  361675500731749100000, 579647774152367200000, 738944081675426700000, 499303209098154300000, 417318279442814500000, 367754399275358300000,
  981718905270232000000, 1011729364515265700000, 514643922106824600000, 531532388318995800000, 547965626902706400000, 1241987873814670400000,
  522356676930212400000, 1150358800627254800000, 194104266582908470000, 626078334965477000000, 177779274214671230000, 336426421137367600000,
  701046732409308000000, 608305300700026200000, 373556223369440770000, 633994554305111300000, 542640458376202900000, 853831494020326600000,
  580113975462948300000, 719413206443350200000, 300582231252240900000, 1150358800627254800000, 844019708424474200000, 489343046452956800000,
  394736915435710600000, 714176407891618600000, 257986360856614860000, 879553780517033700000, 446726362649570300000, 912404187214237400000,
  629191844645018300000, 387848085803364830000, 1172673155758675800000, 768807590122524600000, 1172673155758675800000, 656767625837222900000,
  492572664855150100000, 330137956983610040000, 924182490779875800000, 770137986685160850000, 537236151678940700000, 713161170745216700000,
  887891941410938800000, 557666198030213700000, 868220911986333600000, 352404365266617700000, 1062811926891864700000, 342266970735800500000,
  503931127759679100000, 500169791541991500000, 1172673155758675800000, 885034604166533300000, 394653294651074170000, 392115506301412700000,
  247409827342032340000, 1150358800627254800000, 726370113875978900000, 661927207885496200000, 755619785700711100000, 800103813035010500000,
  531286284831368800000, 882256647755825800000, 757569165168811100000, 950210800606242300000, 289294090230505100000, 631732014353313400000,
  1040497571760443800000, 895414283534697700000, 494482298847059600000, 1311302591870664900000]

def transS50 : List Nat := [
  462804196691113100000, 592053210590157600000, 838438534649174400000, 676664863124294900000, 570165295337382400000, 415269722275876600000,
  1086929199627974400000, 925985408384564400000, 596772779723785000000, 546661461440746400000, 750199616629327000000, 607350145068300300000,
  472403397599234500000, 892338184722443000000, 319816409184816500000, 511513331429847600000, 861800019767324900000, 780123906114612700000,
  542255462461343400000, 995300126440559000000, 688030794971547000000, 771229157512963100000, 586870703803699000000, 769123816593179800000,
  541825354271404350000, 649984414381272200000, 555855210973315000000, 834356335197148800000, 110820361054015160000, 856670690328569900000,
  1046382688817158000000, 412818179470655360000, 1086929199627974400000, 675025482146727200000, 462415469282273000000, 1017614481571979800000,
  725837408363552000000, 995300126440559000000, 789887753071004300000, 484948297616261900000, 358928374339555620000, 977067970761163500000,
  759214726328756750000, 459358879849774100000, 723170583655335800000, 977067970761163500000, 608597562490817900000, 698772819833630600000,
  489548238441048240000, 1086929199627974400000, 396554473869514600000, 398480534423696130000, 611570180517337900000, 838438534649174400000,
  261125821038208630000, 420360827849733500000, 496120905811081300000, 725837408363552000000, 580353740296240900000, 878985045459990700000,
  716799002216725100000, 440004167948397100000, 745156531266637800000, 720573035015009700000, 907753252705169000000, 118144496333042630000,
  553416065660899100000, 1156243917683968900000, 867206741894352500000, 727197973569129800000]

def transS51 : List Nat := [
  368479730573684750000, 629986794237301500000, 705876650049574100000, 551347883507280400000, 540749739421651200000, 379955035048941750000,
  920858883893737700000, 974758533967006400000, 548289541170072300000, 1169349548872537700000, 514241515368197200000, 629533278720762400000,
  552597899783703550000, 250765274834959400000, 681829816552422500000, 159320836021464070000, 328678703048441130000, 684146522480575900000,
  599976334992267700000, 469956251350218800000, 758262162455206600000, 605158841778726300000, 774225177014394900000, 723914819247186900000,
  710852801005480500000, 312352011187016960000, 1100034830816543200000, 788683299895505650000, 480594291706075900000, 495890382875242900000,
  816713496410921500000, 267977845825400830000, 990173601949732300000, 523672583315321400000, 1169349548872537700000, 961405394704554000000,
  501264080993516200000, 370427407991010060000, 723914819247186900000, 1030720112760548600000, 670306290194664000000, 565801405620062100000,
  345179232899555800000, 892090676648559500000, 839765862272104800000, 555145808313802000000, 676624180356817200000, 949627091138915700000,
  581856475787334700000, 905443815911011800000, 443861067864803900000, 1059488320005726600000, 268563856536710100000, 496726208636663000000,
  496846184655853400000, 808257757608115100000, 375862392278020000000, 398194650909623070000, 241989866711417900000, 765044422089082700000,
  638028950968358900000, 808257757608115100000, 788683299895505650000, 378989919911107530000, 503164074818006600000, 892090676648559500000,
  905443815911011800000, 223934656499140000000, 609507352972700200000, 1008405757629127600000, 855800127279622700000, 491130343271858600000]

def transS52 : List Nat := [
  424428516019215500000, 595251064842533000000, 775156726077183600000, 547472640201203100000, 508074135053201650000, 409727556308507800000,
  867620628203746200000, 1023885203296480400000, 558332827970869900000, 1448734727501416200000, 543658897286244500000, 1357105654314000800000,
  597335921454687300000, 1518049445557410800000, 566392016575161700000, 1448734727501416200000, 326569699667260060000, 758863274068417400000,
  206676020220118730000, 364379387195310980000, 759521337693498200000, 610746403456253200000, 383253797786701660000, 644095803301443000000,
  569426629102885500000, 908692468552897200000, 568791177989650900000, 721044515059797200000, 352433482251797160000, 1223605547640766700000,
  930275867379446800000, 543360223526105400000, 458298510506737300000, 760850600619666700000, 236746725083641960000, 776893816776294400000,
  474658455552543100000, 1144282483729074000000, 919153303868424500000, 682629089265233300000, 374408293170412600000, 934861197829059200000,
  684818610335499000000, 1005653047617084900000, 613762643754167400000, 1254143712595884900000, 500248606086402200000, 341279499796717150000,
  804719850067804000000, 836157039029858700000, 421214100566975200000, 568437381843574000000, 894608372985573700000, 500423544332195300000,
  709009215898078700000, 397688336318277400000, 1050766562111220100000, 295245485991837770000, 396271887790318100000, 491573752967251000000,
  1298326987823788800000, 869738710411691000000, 303108740416300160000, 370677770382916000000, 301414544964352160000, 1089003501442571700000,
  1229012269767794200000, 684338532601163300000, 545159841377002400000, 470056209226417600000, 526147810142035200000, 383695852758672300000,
  302785423284140100000, 653702109824754000000, 395421160348099750000, 201581324297722460000, 501445034936693500000, 927786112217274100000,
  703031518589178200000, 553002993300491850000, 1448734727501416200000, 1357105654314000800000]

def transS54 : List Nat := [
  476610848395102300000, 705301576422583800000, 886724808930595300000, 593001202243357000000, 518406665630665400000, 438270589110647500000,
  1034885263023016800000, 1085967825399615800000, 591565770898188700000, 597940477776314600000, 609465936706617100000, 629533006252832200000,
  400251476113008100000, 866245367665994000000, 214079670329511630000, 319658377419762860000, 701664812005496400000, 575373278009557800000,
  429160034258418300000, 757626390799038700000, 571996591762476000000, 882279632673512000000, 717916704955273800000, 810814294095421000000,
  471334899632726150000, 1126514336210432400000, 567976911849842400000, 467072990235454450000, 783115615761917600000, 294615723671226350000,
  987884900098443300000, 1195829054266426900000, 538461037570362200000, 1195829054266426900000, 939334118520273000000, 698155680024369400000,
  360597199443826500000, 987884900098443300000, 513609315204377700000, 931923321304901000000, 615315557374778000000, 1126514336210432400000,
  420983051876457100000, 325445182297402200000, 733331772937999700000, 824471847595996000000, 415812747227130800000, 398789563547283900000,
  773878283748816100000, 421893133997517000000, 572780909508578600000, 413065099629784600000, 866245367665994000000, 235557030212857650000,
  260307090937000100000, 425167762870007150000, 1126514336210432400000, 737332306399369600000, 338075512224186920000, 348296155534672950000,
  332100587099021000000, 882279632673512000000, 1195829054266426900000, 537626540377144200000, 431528690710355100000, 581410490853862250000,
  634516243627619800000, 417966039533845900000, 409080197396514000000, 588986495442015800000, 509239946778082950000, 194348525399618700000,
  385237934467776000000, 819709042697070500000, 510288174405434000000, 597940477776314600000, 1085967825399615800000, 1057199618154437800000]

def transS56 : List Nat := [
  546241837722846300000, 765964295456468200000, 656103066589657300000, 482642961050846600000, 407612401610857200000, 558020141288484700000,
  571373280550936900000, 765964295456468200000, 502058562494942300000, 174344089195724730000, 397076350045074600000, 605020504213058200000,
  488705423232490150000, 586788348533662800000, 627334859344479150000, 627334859344479150000, 448158912421673700000, 526174768176631200000,
  517473630477668200000, 302491396633504700000, 558020141288484700000, 696649577400473700000, 338297683554862700000, 696649577400473700000,
  535705786157063600000, 558020141288484700000, 288895833009901760000, 289746901976692640000, 765964295456468200000, 344013524938857570000,
  482642961050846600000, 482642961050846600000, 656103066589657300000, 452414873863553300000, 174884631052415520000, 336918351341629130000,
  482642961050846600000, 367065890800040800000, 425844557290252700000, 368935104101256070000, 656103066589657300000, 432743844438947900000,
  696649577400473700000, 696649577400473700000, 365230976933221150000, 656103066589657300000, 765964295456468200000, 765964295456468200000,
  222156364564148700000, 444076712969648200000, 558020141288484700000, 627334859344479150000, 605020504213058200000]

def transS59 : List Nat := [
  552756570247757300000, 772479027981379200000, 922886767659006700000, 662617799114568200000, 591468167191754100000, 487215884990047500000,
  623313540303607550000, 670313903228181100000, 992201485715001200000, 728295752753475300000, 513452311436796550000, 882340256848190100000,
  321515252054726460000, 359765589476870050000, 853572049603012100000, 568790835255275250000, 597077113856858400000, 922886767659006700000,
  708880151309379600000, 853572049603012100000, 752411958435164100000, 784257331547017600000, 551529560988575900000, 607186725543995300000,
  636666679566059800000, 735706549968847500000, 356244098847763400000, 628442869742362600000, 714942613491023100000, 340878474623770480000,
  728295752753475300000, 412292220268948600000, 992201485715001200000, 559128151686368000000, 784257331547017600000, 485311065492978000000,
  359407807342081660000, 674396102680206600000, 687749241942658900000, 475722888322649800000, 227518346571952930000, 882340256848190100000,
  386289166156821470000, 611535236737969200000, 470165903207168700000, 678652064122086200000, 242480763394669400000, 247952213435557130000,
  318742319717706350000, 565933498010869600000, 379078836766687080000, 341026952750528400000, 424526105488173000000, 666391831912853000000,
  563155541600162000000, 503921293456364100000, 728295752753475300000, 831257694471591000000, 409601474976956100000, 611535236737969200000,
  591468167191754100000, 636666679566059800000, 170754969639082630000, 301126406918807630000, 922886767659006700000, 275652138208916600000,
  531684467116192000000, 992201485715001200000, 853572049603012100000]

def transS60 : List Nat := [
  503507004845565300000, 657904492010632700000, 862921607948605000000, 625969150381689400000, 338584238655653000000, 324578015183568660000,
  763881737545817250000, 797528961207938550000, 568073669078260400000, 592116587838383900000, 631136351436121500000, 499365626290489600000,
  413368907094778500000, 678744618968333300000, 226884402000370060000, 269127403024220820000, 658899525095949500000, 584230730347152000000,
  450581072300082400000, 579600273542983300000, 464881577661316700000, 701977816705194900000, 553817362612773300000, 879627016414921500000,
  285275522548572100000, 797528961207938550000, 580967037415849700000, 370699174273384700000, 740997580302932500000, 287298712945730600000,
  980787107582769500000, 569699721165438400000, 1119416543694758600000, 899694085961136700000, 682471758448056500000, 367718821234326500000,
  1050101825638764000000, 679971628227514700000, 634997835048899400000, 434934995773932350000, 287737630987606870000, 855510810733232700000,
  570936850345693100000, 546731768936038900000, 546082416004984100000, 836095209289137000000, 509834087451536100000, 940240596771953100000,
  438182034277010700000, 1050101825638764000000, 387033487074526900000, 470953020131233400000, 420667518994659500000, 958472752451348600000,
  686343209666125500000, 375050175383199500000, 501829816684182450000, 164856785190673530000, 611899162171375900000, 467501814900719000000,
  697465773177147950000, 724292171836615850000, 494226155378169700000, 608821996304700500000, 581888702926342100000, 797528961207938550000,
  236743083872667400000, 550719008060776600000, 1119416543694758600000, 655943644871795100000, 447999490703811400000]

def transS61 : List Nat := [
  302042488614436260000, 232727770558441700000, 371357206670430800000, 371357206670430800000, 371357206670430800000, 232727770558441700000,
  371357206670430800000, 371357206670430800000, 210413415427020740000, 302042488614436260000, 302042488614436260000, 302042488614436260000,
  371357206670430800000, 302042488614436260000, 210413415427020740000, 371357206670430800000, 371357206670430800000, 210413415427020740000]

def transS63 : List Nat := [
  371357206670430800000, 371357206670430800000, 302042488614436260000, 371357206670430800000, 371357206670430800000, 210413415427020740000,
  371357206670430800000, 261495977803619840000, 261495977803619840000, 261495977803619840000, 302042488614436260000, 302042488614436260000,
  302042488614436260000, 163413052502447180000, 232727770558441700000, 371357206670430800000, 371357206670430800000]

/-- jieba/posseg/prob_trans.py: the values for the states with 'S', times -10^20, in the order of the states that `trans` lists. -/
def transValuesS : List (List Nat) := [
  transS0, transS1, transS2, transS3, transS4, transS5, transS6, transS7,
  [], transS9, transS10, [], transS12, transS13, transS14, [],
  [], transS17, [], transS19, [], [], transS22, transS23,
  [], transS25, transS26, transS27, [], [], [], transS31,
  transS32, transS33, transS34, transS35, [], transS37, transS38, transS39,
  [], [], [], transS43, transS44, transS45, transS46, transS47,
  transS48, transS49, transS50, transS51, transS52, [], transS54, [],
  transS56, [], [], transS59, transS60, transS61, [], transS63]

def transValues : List (List Nat) := transValuesB ++ (transValuesE ++ (transValuesM ++ transValuesS))

/-- jieba/posseg/prob_start.py: the values, times -10^16; `none` is -3.14e100. -/
def startValues : List (Option Nat) := [
  some 47623052145969670, some 66800660367841770, none, some 86970832230187780, some 50183743621092180, none, some 34238801849548880, some 39750475297585357,
  some 88889742308288820, none, some 85635518303942550, none, some 54916304184827170, none, some 135333651299702550, some 61157847275557105,
  none, some 50576191284681915, none, none, some 49058835846598950, none, some 36524299819046386, none,
  some 67869530013968800, some 16966257797548328, none, some 22310495913769506, some 58737221754055730, some 49856427335191950, some 28228438314969213, some 48460916681824160,
  some 39469884605767200, some 84334987021460570, some 42009841320850480, some 69981238589565960, none, none, some 34098187790818413, none,
  some 124347528413021460, some 79461164715700050, some 55226735908399540, some 33647479094528574, none, some 91639172775032340, none, none,
  none, none, none, none, some 26740584874265685, some 90447287602381150, none, some 124347528413021460,
  some 43315610890163585, some 121470707688503640, none, none, some 98444856758563190, none, some 70456811114856450, none,
  none, none, none, none, none, none, none, none,
  none, none, none, none, none, none, none, none,
  none, none, none, none, none, none, none, none,
  none, none, none, none, none, none, none, none,
  none, none, none, none, none, none, none, none,
  none, none, none, none, none, none, none, none,
  none, none, none, none, none, none, none, none,
  none, none, none, none, none, none, none, none,
  none, none, none, none, none, none, none, none,
  none, none, none, none, none, none, none, none,
  none, none, none, none, none, none, none, none,
  none, none, none, none, none, none, none, none,
  none, none, none, none, none, none, none, none,
  none, none, none, none, none, none, none, none,
  none, none, none, none, none, none, none, none,
  none, none, none, none, none, none, none, none,
  some 39025396831295227, some 110484584801822550, some 69541139179601540, some 128402179494103100, some 64728887639704540, none, some 47869667958612120, some 39039197641818730,
  none, some 89483976512996830, some 59425130062816740, none, some 51948202499816760, some 65078268153317340, some 86505632073838840, none,
  none, some 49119921196443540, none, some 69403205958278180, none, none, some 32692006521160970, some 108253149288680440,
  none, some 38551483897645107, some 49134348611029050, some 44836631039568850, none, none, none, some 121470707688503640,
  none, some 84644609277500230, some 29868401813596317, some 48886586182550580, none, none, some 27635336784127853, some 102752685919487730,
  none, none, none, none, some 62728425318804030, some 69403205958278180, some 77282301610537670, some 75394037026636855,
  some 68525104511800400, some 84153713175535000, some 81580867222860900, some 92992586253729960, some 30532923034123020, none, some 59430181843676895, none,
  some 114539235882904190, none, none, some 84274196560696740, some 61970794699489575, some 135333651299702550, none, none]

/-- The row of a state in jieba/posseg/prob_trans.py. -/
def transRow (n : Nat) (vs : List Nat) : PyDict PState ℚ := ((unpack n).map stateAt).zip (vs.map (fun v => rnd (-((v : ℕ) / 10 ^ 20))))

/-- The row of a state in jieba/posseg/prob_emit.py. -/
def emitRow (r : List (List Nat)) : PyDict Ch ℚ := r.flatten.map (fun e => (code e, value e))

/-- The tables that jieba/posseg/__init__.py:28-41 loads, and `MIN_FLOAT`. -/
def tables : Tables ℚ where
  charStates := chars.map charEntry
  start := states.zip (startValues.map (fun v => match v with
    | some v => rnd (-((v : ℕ) / 10 ^ 16))
    | none => minFloat))
  trans := states.zip (List.zipWith transRow trans transValues)
  emit := states.zip (emitRows.map emitRow)
  minFloat := minFloat

end Jieba.PosData
