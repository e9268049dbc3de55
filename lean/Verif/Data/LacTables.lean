import Verif.Model.Paddle
/-!
# The tables shipped in jieba/lac_small

Generated from jieba/lac_small/word.dic and tag.dic.  The first 20935 lines of word.dic have the ids 0 to 20934 and one character each; `chars` are
these characters, in the order of the file.
-/

namespace Jieba.LacData
open Jieba Jieba.Paddle

def chars0 : List Nat := [
  97, 101, 105, 110, 111, 115, 114, 116, 108, 48, 117, 99, 49, 100, 109, 104, 103, 50, 112, 98,
  121, 53, 51, 56, 54, 107, 65, 52, 57, 102, 55, 83, 118, 69, 119, 122, 67, 120, 84, 73,
  106, 77, 82, 79, 68, 76, 78, 66, 80, 72, 71, 26446, 70, 75, 29579, 24352, 113, 85, 21016, 38472,
  87, 89, 86, 26031, 25991, 88, 74, 90, 21326, 26126, 23572, 26519, 24503, 26195, 26472, 37329, 81, 20811, 23567, 24535,
  22269, 28023, 20029, 24179, 29577, 40644, 21556, 24314, 29305, 25289, 23376, 36213, 21033, 39532, 20891, 21608, 20122, 20255, 19996, 32418,
  40857, 26149, 20113, 29983, 26417, 23385, 24464, 27704, 36798, 32654, 23433, 26480, 21345, 22825, 26032, 32599, 37324, 22823, 20809, 27874,
  23478, 25104, 31119, 39640, 32993, 33635, 33521, 38463, 24605, 31435, 29790, 23792, 23453, 37101, 28165, 20848, 35199, 23665, 32500, 29233,
  23431, 20339, 36745, 20426, 38597, 24198, 23612, 26757, 26684, 20043, 19968, 21531, 24544, 24378, 23398, 19990, 38634, 33391, 27665, 33459,
  37073, 25935, 31168, 36842, 20803, 27946, 31077, 27901, 20013, 24247, 31185, 22025, 27491, 39134, 24052, 20852, 26494, 24681, 27743, 20048,
  23439, 25391, 25996, 36335, 38632, 23068, 38647, 29618, 38271, 22810, 20975, 31859, 21152, 22855, 21513, 38738, 27494, 27700, 24067, 21147,
  29141, 32435, 30333, 24935, 23435, 19975, 33713, 21191, 20025, 23041, 23425, 21335, 22763, 22530, 20309, 26222, 27931, 31179, 32988, 20161,
  38889, 22885, 23500, 19969, 26376, 30707, 26041, 21338, 26862, 33395, 40527, 21018, 20964, 35834, 38451, 28059, 21494, 39321, 27604, 26361,
  23569, 26124, 27888, 20234, 20142, 27784, 38686, 26753, 33778, 35874, 21776, 26234, 26790, 24076, 26364, 36125, 26460, 26408, 33457, 33487,
  26143, 33805, 24515, 26223, 36229, 27427, 26641, 24191, 35768, 20271, 26469, 22827, 22612, 21355, 20041, 20911, 21487, 30000, 36947, 22307,
  27721, 19977, 23071, 21451, 22799, 22522, 23447, 20154, 36149, 23159, 40065, 26681, 33406, 38745, 35799, 24800, 27861, 34081, 29595, 21916,
  28009, 27431, 20445, 28504, 39118, 33673, 29645, 28304, 26690, 36828, 23391, 27801, 32487, 39034, 38182, 37011, 36132, 20070, 20840, 24471,
  36713, 36890, 21525, 25165, 22958, 33891, 26366, 24429, 38596, 29748, 26093, 34945, 22478, 29747, 33452, 35946, 26449, 21346, 21073, 33931,
  20262, 22521, 39759, 29926, 21704, 33707, 19997, 20853, 21476, 38134, 27849, 21457, 20256, 32676, 33509, 34382, 36830, 22914, 32918, 37995,
  30427, 20808, 20961, 40511, 22270, 31456, 23004, 29738, 21551, 26575, 32768, 24320, 20381, 22372, 26377, 33832, 24609, 23828, 24029, 31062,
  23578, 36158, 22253, 32032, 25176, 28113, 20581, 24422, 20313, 21452, 20449, 40614, 33539, 27754, 33922, 31243, 26397, 21644, 28982, 26412,
  22622, 28789, 31206, 38125, 27827, 36827, 22982, 30334, 38470, 24428, 38155, 27905, 33714, 20912, 26216, 37030, 20806, 38047, 26085, 32461,
  38081, 24576, 36187, 21892, 33298, 24658, 20854, 34892, 26106, 20462, 26131, 20219, 33678, 46, 39038, 33402, 20016, 30382, 24085, 24310,
  38534, 38376, 22826, 21746, 23450, 33945, 27915, 32043, 24196, 23002, 25140, 21521, 39039, 31036, 26435, 26725, 39062, 38215, 33538, 30410,
  38706, 40784, 20185, 20799, 21202, 22320, 30495, 20940, 27611, 20329, 20908, 24343, 20061, 28070, 28085, 21315, 21490, 30887, 33258, 25215,
  24425, 32724, 20052, 26045, 27835, 32034, 20250, 36816, 21331, 27589, 24180, 33721, 27779, 20110, 23380, 34203, 19994, 26611, 20869, 38065]

def chars1 : List Nat := [
  24311, 30331, 20181, 29081, 23432, 25964, 23389, 38639, 22686, 30456, 26102, 26976, 20108, 31481, 35895, 19981, 29275, 22909, 20140, 20210,
  36203, 40657, 26391, 27748, 24742, 34013, 20844, 26771, 29664, 33437, 33489, 28851, 22862, 40654, 32769, 20315, 35885, 40060, 23609, 31070,
  28201, 24093, 38177, 38518, 22696, 23195, 19978, 20044, 24120, 35328, 29066, 21270, 28779, 21319, 24237, 33251, 21516, 22836, 26230, 30922,
  26970, 25552, 20248, 21220, 27468, 23721, 29734, 33609, 38886, 24211, 28330, 36920, 20116, 25919, 20896, 26524, 36291, 36784, 26607, 25096,
  24278, 34183, 29756, 30003, 21344, 28246, 36763, 20195, 22235, 20005, 25166, 20521, 37049, 20035, 23452, 25463, 29702, 27954, 40483, 37041,
  26635, 32736, 30591, 28385, 23481, 38678, 32426, 23731, 21375, 32701, 25196, 38401, 20134, 37045, 23621, 20037, 26705, 23551, 35760, 21271,
  21733, 29814, 22467, 24420, 36154, 33738, 28248, 35802, 23486, 37085, 38750, 29642, 23384, 26080, 39068, 24847, 30422, 233, 38669, 21021,
  27966, 37326, 25705, 22925, 24212, 21475, 39336, 21517, 22362, 21697, 33021, 23506, 32431, 33993, 22768, 33883, 33322, 20197, 22374, 31461,
  23588, 33394, 26228, 20196, 37325, 32874, 33433, 20141, 26609, 21512, 20857, 32946, 38899, 21402, 36808, 20184, 22856, 35821, 24773, 23467,
  21015, 37117, 38054, 28814, 24517, 23458, 34174, 40858, 31505, 24038, 20316, 27004, 20999, 23047, 23466, 38901, 20892, 27969, 23494, 20851,
  23725, 24178, 20026, 22812, 27663, 24494, 30007, 26174, 33150, 29976, 23045, 26187, 26122, 20202, 26597, 28949, 23020, 21360, 21488, 33495,
  38064, 30002, 21195, 36710, 29677, 38160, 21407, 34425, 20845, 27573, 26354, 23815, 19971, 33593, 33804, 38, 24039, 24030, 37027, 26631,
  20446, 22561, 21171, 32852, 22303, 34880, 36215, 20065, 29788, 23707, 27744, 25112, 24072, 33590, 40548, 24426, 40718, 23113, 35029, 23395,
  32822, 38379, 20919, 26118, 30693, 32511, 40607, 26421, 40664, 36126, 20160, 36182, 20522, 23591, 28799, 22240, 23448, 26157, 22869, 31302,
  20304, 24433, 33655, 21151, 25746, 29031, 20117, 23485, 26704, 33841, 22346, 32858, 33831, 29699, 29840, 26198, 39740, 38754, 23383, 24917,
  36153, 36234, 32422, 26342, 21518, 27426, 26539, 29614, 27575, 21253, 24565, 20843, 27741, 32752, 40643, 22900, 25163, 26395, 33564, 20754,
  20613, 27668, 29572, 40667, 27719, 32943, 40845, 32784, 20305, 28286, 21333, 23706, 33293, 28909, 26114, 27493, 38050, 29615, 24481, 32536,
  20237, 19979, 26426, 20094, 39764, 21069, 38663, 24040, 32447, 30355, 30408, 24222, 35878, 23459, 22899, 20307, 38742, 22343, 21170, 27982,
  30805, 33829, 24070, 22937, 29791, 36130, 20986, 22312, 28828, 21619, 26007, 30041, 28145, 33464, 32831, 27803, 32463, 31649, 33756, 29486,
  22806, 27583, 25151, 28966, 39592, 28857, 31161, 31108, 27605, 26691, 31354, 20399, 40560, 23703, 27941, 38593, 24069, 22915, 22797, 34915,
  39567, 32834, 32490, 23043, 30524, 33311, 25171, 20998, 27833, 32773, 24230, 35282, 26420, 34276, 26525, 33853, 20136, 28216, 28526, 30343,
  33775, 26805, 28392, 31166, 37070, 27934, 31934, 28872, 32705, 20801, 22616, 29831, 20107, 31069, 32764, 31881, 26495, 36196, 30424, 26133,
  34122, 23039, 20384, 22238, 225, 31177, 24449, 22278, 32771, 33576, 23064, 37026, 30005, 29822, 37202, 23546, 23562, 20873, 36793, 21035,
  20992, 24037, 31601, 39340, 22369, 24344, 27146, 35060, 26580, 29995, 22969, 28006, 38145, 28170, 26144, 24403, 40077, 35265, 40635, 23143,
  36873, 29273, 28895, 32735, 38055, 23627, 20914, 25918, 33465, 29020, 20877, 23576, 21496, 21019, 24651, 24188, 23637, 38236, 23454, 28010]

def chars2 : List Nat := [
  29634, 29245, 39536, 40575, 21566, 31616, 34411, 32593, 20174, 232, 32005, 39135, 36190, 224, 26612, 27807, 39746, 24373, 21460, 31471,
  20837, 38395, 32819, 24904, 27712, 38598, 37057, 23077, 27515, 20239, 35266, 40479, 28207, 20179, 33453, 32650, 32445, 35449, 21807, 20027,
  20159, 26071, 26379, 34074, 21830, 26000, 25308, 20957, 21313, 37239, 29255, 24615, 28904, 38263, 23528, 34003, 21160, 39745, 29483, 36814,
  39770, 25958, 28014, 26481, 29992, 38684, 21647, 37319, 29436, 35299, 34913, 24405, 24220, 29723, 33310, 34903, 28572, 33268, 21017, 21162,
  24859, 20030, 28156, 236, 26207, 32905, 36523, 24055, 20285, 30021, 20856, 39318, 234, 25995, 25343, 27792, 39558, 19993, 29399, 29916,
  20839, 32454, 237, 35270, 23663, 33275, 37240, 36895, 38957, 20859, 20658, 29287, 28155, 30452, 40481, 27850, 21187, 26161, 24013, 23480,
  24335, 33589, 35910, 20241, 21322, 22330, 34503, 28783, 20020, 29626, 29004, 39030, 27425, 24518, 22766, 31038, 24109, 29289, 38517, 37257,
  27602, 23194, 39080, 31215, 20336, 36554, 24218, 36807, 29467, 33729, 27597, 20004, 40836, 30772, 20080, 25928, 31098, 30332, 29605, 25105,
  34255, 21439, 21495, 22350, 35757, 22030, 20247, 25087, 242, 24213, 20826, 38272, 23614, 20104, 36948, 36716, 21464, 30431, 26159, 38446,
  33647, 33337, 36275, 24555, 34349, 27603, 20057, 35759, 26447, 28193, 38525, 32780, 25299, 35937, 21947, 27735, 30473, 25955, 20063, 27178,
  21484, 33410, 24402, 31163, 22378, 20301, 21046, 26263, 27029, 20170, 37327, 22120, 20180, 33073, 25152, 20132, 32467, 36731, 39042, 29616,
  21448, 30028, 30149, 23553, 31041, 23493, 23736, 27185, 38452, 22934, 28595, 26399, 21382, 21629, 32494, 24444, 22805, 20024, 24322, 28147,
  33510, 243, 28548, 27714, 38283, 26432, 36884, 252, 29632, 35843, 27777, 22283, 21453, 38646, 33559, 65296, 26063, 33970, 27859, 26848,
  24341, 24351, 29246, 29260, 22242, 33267, 29420, 23092, 36855, 20498, 28698, 38083, 33485, 28103, 36718, 29380, 32321, 27138, 21340, 27683,
  26657, 23130, 26029, 38712, 23542, 22266, 35961, 38892, 38544, 25945, 22995, 65297, 26497, 24102, 36208, 32645, 24110, 20126, 20928, 23125,
  38590, 25402, 31958, 25307, 20937, 34588, 25910, 25968, 22887, 38642, 36848, 36874, 26477, 24189, 33050, 65298, 24265, 26726, 28784, 21307,
  19982, 38515, 22365, 33454, 30446, 19992, 33308, 35203, 28487, 21547, 20146, 38108, 26202, 25903, 29482, 30011, 29590, 250, 24215, 39033,
  28189, 25490, 26059, 31508, 21387, 33463, 25253, 24375, 20083, 34701, 31515, 20872, 30340, 26827, 39046, 29787, 23624, 29378, 38498, 23803,
  23396, 35851, 26410, 20820, 40092, 34893, 26415, 21535, 38388, 35745, 35273, 27877, 20081, 34678, 20493, 21367, 27531, 34028, 23545, 26893,
  32789, 30462, 36838, 32554, 26465, 22495, 27442, 26479, 34394, 20064, 29239, 26089, 40599, 37089, 27973, 36864, 32440, 31574, 65345, 27963,
  31398, 25856, 23631, 21050, 27891, 26086, 34917, 38450, 23005, 24698, 26196, 32932, 36557, 28459, 22833, 28373, 32972, 35789, 26199, 34920,
  20358, 28034, 22353, 35465, 35013, 21463, 29980, 27231, 37034, 22068, 38605, 26825, 38660, 38024, 33606, 26009, 40736, 38761, 28843, 23558,
  32477, 38149, 21462, 38651, 23487, 36135, 31908, 33909, 22992, 20171, 29237, 38420, 28037, 38378, 21548, 22830, 25484, 36817, 36129, 27785,
  36831, 25913, 37197, 24217, 26579, 38126, 38414, 33455, 27728, 39056, 34507, 25252, 37096, 23386, 20260, 29392, 39277, 40723, 23044, 25114,
  30053, 21880, 24184, 28363, 25351, 24736, 22971, 33033, 19995, 35686, 27169, 27927, 22902, 26538, 24694, 23476, 38771, 65299, 22865, 24819]

def chars3 : List Nat := [
  24202, 27882, 38543, 24066, 25506, 28976, 35947, 40670, 20303, 28142, 28846, 22280, 21520, 26999, 35805, 32218, 25509, 20551, 20167, 23556,
  34560, 23156, 20319, 36861, 22868, 33014, 26191, 20861, 36339, 24358, 36136, 39636, 25187, 26356, 21321, 26792, 24418, 24687, 22721, 20849,
  33777, 38389, 28192, 24863, 23547, 30416, 24778, 29690, 24910, 21435, 29422, 38902, 38617, 30643, 23429, 24231, 24635, 36259, 33836, 30701,
  22857, 28393, 39131, 25206, 25240, 31584, 23495, 257, 23574, 26262, 24357, 24796, 28044, 31526, 65304, 21280, 23267, 29854, 26441, 35753,
  38654, 21205, 34164, 22788, 23456, 26954, 21153, 29492, 32763, 21040, 31454, 21442, 26576, 38397, 36865, 21281, 38026, 34180, 30952, 33426,
  23157, 21380, 28180, 25143, 25512, 30740, 32434, 24685, 32854, 33541, 36164, 23451, 39749, 36719, 32974, 40493, 24858, 21894, 37492, 33618,
  21327, 32618, 38094, 36805, 31513, 35486, 33862, 21305, 21306, 32483, 22411, 36726, 39069, 28040, 38739, 30828, 30528, 23011, 20559, 31080,
  30862, 22871, 36965, 20864, 38469, 26550, 25331, 24043, 65302, 22919, 36171, 31169, 26329, 31449, 36733, 25239, 33446, 33180, 23608, 36866,
  38169, 28525, 20987, 20461, 24034, 24187, 23110, 40594, 20540, 27490, 31181, 32173, 65347, 23696, 24460, 20278, 22681, 20995, 32519, 29744,
  27527, 28903, 31389, 30746, 28961, 30719, 36951, 20105, 24618, 65346, 26411, 36870, 30721, 37322, 23648, 38382, 24684, 33136, 25481, 26178,
  20855, 33080, 29835, 38539, 33469, 25511, 22777, 29956, 26371, 20215, 21163, 33740, 29105, 23681, 30171, 21051, 21934, 21688, 26360, 20846,
  26381, 25942, 31105, 24046, 27819, 26647, 26286, 20542, 25136, 25237, 25103, 24065, 35201, 36896, 20901, 32908, 38477, 40863, 20302, 65359,
  30165, 23416, 24377, 28129, 36857, 31661, 23697, 35835, 28781, 33821, 28508, 31319, 20420, 21514, 34398, 26001, 28809, 32933, 35828, 31283,
  28977, 38589, 24613, 27225, 21342, 38592, 20572, 27088, 32423, 21095, 22993, 23729, 65349, 24324, 33041, 34067, 35770, 22771, 40763, 22294,
  37266, 29356, 22564, 38386, 22352, 19987, 34562, 39286, 35777, 28082, 33722, 23548, 36305, 30722, 35848, 34430, 28251, 26434, 30475, 29238,
  22496, 30450, 25932, 27867, 25671, 32718, 38662, 26680, 23679, 25442, 32929, 20135, 21576, 28431, 33288, 38138, 21009, 30465, 35037, 20993,
  26352, 21129, 23519, 38500, 40831, 23781, 29279, 39128, 24459, 38795, 31109, 30655, 21491, 29855, 28369, 29028, 28386, 29736, 36898, 31246,
  23470, 29366, 32013, 35880, 23492, 24339, 32451, 24207, 32433, 24680, 20977, 23527, 24118, 22659, 23616, 25805, 22948, 35010, 29454, 30496,
  27873, 36766, 65353, 21183, 25102, 23460, 38918, 36879, 20139, 28436, 35032, 30001, 21161, 31532, 22859, 20648, 20240, 27818, 65305, 30913,
  25293, 30460, 29640, 36155, 20599, 28151, 20208, 38431, 22580, 32996, 21628, 26696, 39545, 36824, 38082, 26686, 33151, 21709, 31143, 28322,
  39292, 65300, 39302, 26448, 31918, 22999, 32570, 26722, 26989, 27462, 24799, 32441, 31087, 23830, 39044, 32903, 36899, 24754, 21809, 40557,
  33016, 26438, 26292, 22290, 20934, 27766, 21555, 38075, 32420, 27687, 20918, 33026, 24616, 23798, 29190, 23613, 22841, 25346, 32928, 32501,
  23822, 37504, 25514, 31639, 38464, 27211, 25191, 32844, 24509, 37009, 29802, 33633, 25106, 26087, 19985, 27987, 20415, 20177, 27463, 32291,
  22260, 32428, 35098, 19998, 32966, 36741, 20943, 36143, 22317, 20056, 29575, 21029, 34253, 25159, 33802, 30246, 28450, 65358, 28415, 27014,
  23673, 24291, 21477, 20511, 38816, 22402, 39589, 37941, 38622, 34399, 32963, 29609, 38613, 32597, 22697, 35850, 36156, 23565, 20214, 32534]

def chars4 : List Nat := [
  65348, 23234, 33865, 26643, 28287, 32479, 31665, 24248, 32456, 36681, 21561, 22134, 28860, 32879, 35889, 24748, 30008, 20841, 22996, 24466,
  21320, 24536, 34299, 36935, 24107, 25976, 28608, 32147, 28847, 24594, 29647, 38728, 29113, 38748, 20818, 22577, 35519, 22313, 34955, 22918,
  21508, 31085, 23618, 32882, 38476, 24149, 24125, 20102, 33292, 30871, 35352, 31377, 19989, 35997, 30436, 36942, 37255, 32039, 31867, 23075,
  23896, 24323, 23913, 21334, 20392, 65360, 22359, 26463, 32499, 27243, 37122, 31383, 31890, 33167, 28751, 32681, 39333, 34277, 21351, 22839,
  35832, 20355, 25265, 32114, 25925, 21416, 21943, 33620, 20431, 20982, 26012, 24525, 38364, 23436, 30358, 36867, 27036, 26679, 28139, 36939,
  21888, 20114, 27974, 32080, 20391, 38383, 25277, 33098, 31192, 35831, 20889, 32493, 32452, 27492, 28865, 21560, 38144, 32714, 28478, 33643,
  36914, 249, 38190, 22234, 31561, 30095, 24369, 26834, 28195, 23233, 22842, 38142, 25042, 20320, 39553, 21169, 32982, 34746, 24688, 29641,
  39035, 22661, 27454, 22534, 36724, 25972, 21674, 27880, 25937, 32178, 21246, 25773, 31216, 35064, 39057, 26842, 23615, 29649, 26107, 23475,
  26531, 38453, 22791, 31291, 21483, 23601, 25915, 36771, 37051, 20432, 26112, 36367, 32925, 22363, 20687, 22818, 24895, 26025, 33145, 33503,
  24833, 27193, 37666, 34809, 20667, 40517, 24577, 33479, 31570, 28331, 35582, 34137, 31359, 32025, 28071, 22904, 21378, 40485, 29701, 28422,
  26166, 27264, 38505, 26119, 35036, 35793, 26517, 24709, 25345, 35780, 24245, 40660, 29022, 25342, 29087, 35797, 39064, 28020, 36960, 25670,
  37036, 26543, 38829, 34107, 65303, 21133, 21507, 21193, 32438, 36801, 20276, 30127, 20351, 32899, 23457, 26797, 20182, 25300, 24735, 31348,
  35920, 21213, 23526, 32160, 29627, 24443, 21578, 34542, 25250, 29943, 26530, 31995, 23777, 34311, 28120, 36127, 65363, 21592, 20046, 37002,
  36093, 27472, 32437, 21696, 34987, 31821, 32937, 23610, 22291, 26053, 28458, 27863, 33674, 33255, 27161, 26388, 25628, 22609, 35222, 29425,
  38136, 31569, 38468, 21058, 31563, 26588, 36141, 28378, 39540, 33139, 22675, 30406, 39569, 28316, 22418, 38512, 22987, 24223, 36194, 38548,
  31895, 35758, 23786, 33976, 20663, 33418, 30742, 35722, 26816, 24062, 20805, 20813, 29256, 25340, 31548, 34966, 28372, 40251, 36008, 32622,
  30126, 28748, 27133, 21385, 37670, 29942, 20225, 26646, 21543, 30561, 28205, 26799, 32997, 32455, 20729, 33631, 22351, 21767, 28552, 33261,
  24604, 36172, 29611, 26578, 22218, 24930, 27155, 31351, 39178, 25195, 20711, 40509, 20976, 29123, 28342, 32466, 21247, 20129, 36148, 29128,
  35422, 23472, 28271, 40120, 24091, 28448, 39280, 21563, 26781, 24785, 35433, 20570, 65365, 36001, 38405, 31227, 24551, 35825, 40613, 22874,
  20018, 32026, 22870, 23490, 21098, 30423, 20598, 22920, 39551, 31361, 28404, 29002, 26132, 24448, 38480, 24080, 34527, 36133, 36637, 26943,
  27578, 37233, 32004, 25758, 30196, 24208, 23536, 38506, 33529, 36797, 38675, 25806, 28580, 20439, 21987, 25317, 65364, 30879, 24453, 33761,
  32568, 20659, 38454, 32476, 27424, 20804, 27530, 26541, 36930, 38627, 29872, 35838, 21361, 24033, 35441, 32792, 27167, 36880, 20505, 36938,
  29226, 38025, 30059, 30070, 30086, 25554, 31957, 34218, 38459, 32553, 38914, 21106, 34989, 24367, 25361, 38120, 35211, 33900, 21650, 20506,
  31054, 36151, 36650, 31558, 27979, 29986, 34593, 27599, 33067, 33108, 20191, 21465, 65352, 32958, 38936, 35823, 29088, 37038, 33603, 275,
  31237, 24452, 25153, 33256, 65351, 32495, 34030, 32541, 20266, 24713, 30899, 20011, 39791, 25588, 23449, 34433, 25563, 36027, 33688, 21002]

def chars5 : List Nat := [
  21312, 30142, 28844, 24049, 24041, 31048, 20254, 22949, 23388, 35140, 25302, 21574, 27713, 29503, 30097, 36191, 21450, 21449, 32544, 35044,
  30827, 32728, 20007, 35782, 36176, 38931, 26928, 25142, 65368, 27993, 31491, 22774, 21705, 39278, 20458, 30865, 20523, 28516, 25130, 26829,
  35268, 39184, 23705, 31295, 32472, 39568, 29282, 32047, 33905, 35033, 34923, 20365, 21736, 38626, 21497, 31096, 36991, 33795, 33983, 21741,
  23559, 20960, 28176, 20915, 20379, 26039, 22256, 31199, 38391, 28796, 27695, 25169, 20363, 33184, 38291, 27224, 34395, 39151, 23561, 34802,
  36195, 28092, 28798, 36074, 29359, 37, 23566, 31680, 36712, 25296, 28699, 39582, 27781, 22974, 39557, 26049, 35269, 19988, 31034, 20284,
  36175, 31903, 24489, 21713, 35264, 25954, 21482, 28879, 35242, 23016, 35948, 33879, 36984, 27994, 20828, 30417, 39550, 24182, 34453, 37341,
  30967, 25193, 28866, 23653, 27900, 38393, 27902, 21150, 21534, 34521, 28938, 22367, 30418, 24840, 65369, 28954, 25235, 20553, 22426, 28900,
  32666, 28107, 25259, 38425, 65357, 32609, 24944, 27964, 39662, 26564, 29138, 33659, 24328, 30058, 21443, 25216, 30897, 25429, 22840, 36924,
  28418, 40158, 24950, 40510, 35059, 27189, 38538, 25035, 31232, 38928, 39564, 32531, 26097, 20989, 31258, 40104, 24133, 20312, 36039, 36820,
  21010, 23560, 27798, 24524, 34281, 29827, 22863, 38471, 33144, 37806, 24266, 25209, 32491, 31614, 24186, 24571, 29863, 32957, 28041, 26742,
  33492, 25645, 26367, 31278, 25226, 40179, 28187, 33491, 38180, 20778, 29017, 21363, 33328, 39048, 36145, 38057, 20923, 29544, 37509, 21359,
  22942, 30896, 34957, 36214, 22635, 38657, 20538, 38392, 25321, 36249, 33018, 38428, 32085, 21038, 32592, 34384, 25197, 38109, 38041, 32856,
  27773, 38085, 29301, 28925, 26851, 33903, 24661, 34269, 21806, 26997, 22739, 21897, 30338, 35302, 30064, 24392, 33735, 32709, 22443, 33126,
  23544, 29673, 38156, 26127, 33203, 36893, 32453, 25439, 29694, 65356, 32954, 30031, 20249, 29030, 25405, 38867, 28068, 65366, 38671, 24656,
  28856, 35987, 40165, 33419, 31520, 20898, 22338, 21472, 30347, 33104, 26707, 22132, 30342, 34633, 23849, 37628, 24537, 30103, 31687, 37129,
  36328, 31572, 34907, 28073, 24235, 34389, 39548, 30813, 22531, 35430, 21209, 26837, 23381, 26454, 29241, 21127, 26898, 25305, 20860, 35809,
  20876, 25033, 26639, 20223, 25243, 21330, 35775, 26522, 40100, 65350, 21365, 23421, 34432, 35748, 27498, 21414, 38043, 25366, 21703, 29071,
  28079, 24717, 21676, 26313, 31482, 21405, 35498, 40114, 36974, 27054, 24331, 36319, 33218, 36020, 31150, 21109, 39556, 35762, 36317, 30789,
  28771, 24646, 27402, 33274, 35272, 36139, 22275, 23377, 30928, 28558, 37291, 38520, 21047, 31499, 23646, 36138, 30010, 22576, 38381, 24432,
  36134, 24050, 35413, 20396, 36786, 35206, 25320, 28818, 27929, 33225, 23186, 29228, 25438, 23273, 32922, 37857, 39537, 20280, 29978, 25499,
  22435, 20917, 28382, 21295, 20652, 20625, 363, 32317, 26708, 29468, 28861, 32887, 20882, 33725, 32893, 39578, 27922, 26332, 34928, 32469,
  26244, 35785, 25480, 22882, 38988, 26179, 30520, 36386, 22916, 35703, 31777, 19976, 28790, 35786, 32617, 37259, 26729, 23831, 32478, 27815,
  35009, 25286, 38209, 29313, 21028, 23573, 27682, 40480, 21149, 31446, 39130, 26368, 36420, 32673, 38519, 32552, 26103, 39029, 32716, 28891,
  31581, 27585, 25088, 33600, 38466, 36028, 40372, 35712, 36629, 26723, 25242, 21103, 35746, 27085, 20985, 32232, 31292, 25329, 38607, 30908,
  26700, 38665, 30566, 39562, 25720, 35657, 33540, 32110, 21290, 35930, 37221, 22296, 21381, 33719, 40486, 25276, 27839, 36887, 24841, 26885]

def chars6 : List Nat := [
  21350, 38797, 31528, 23531, 32020, 32227, 31455, 32068, 25220, 28359, 31914, 37707, 28134, 20332, 27875, 24380, 20448, 26104, 27985, 32485,
  35774, 34223, 26791, 20130, 24185, 30151, 33323, 29038, 21652, 36575, 36066, 36067, 29376, 30284, 27688, 38752, 32048, 25581, 26500, 24423,
  24088, 21348, 31186, 38253, 28540, 65355, 38887, 26665, 29076, 22366, 27745, 36981, 35069, 23403, 32690, 24573, 21200, 29151, 32439, 27544,
  33034, 23521, 27957, 20166, 21128, 36777, 37912, 32548, 31165, 29996, 21242, 20291, 33592, 34558, 35841, 34429, 30192, 20984, 37230, 33109,
  23477, 31353, 24801, 35336, 65362, 38035, 25269, 32473, 26197, 35506, 35377, 21729, 32508, 33545, 20098, 21855, 21839, 25424, 28902, 33030,
  20633, 26865, 22475, 27895, 27965, 29662, 23142, 32670, 30830, 38568, 29312, 34442, 27627, 35613, 31946, 39072, 21941, 32990, 37048, 36562,
  28204, 20221, 26023, 24359, 30683, 20885, 29705, 29432, 25170, 29993, 32902, 26586, 23630, 24246, 33995, 38989, 21542, 25802, 40232, 26088,
  23769, 39472, 36092, 27512, 36929, 27298, 32532, 30702, 29006, 32011, 28024, 26775, 29808, 38394, 25377, 30733, 31609, 28063, 23461, 32442,
  36152, 32842, 32517, 27811, 33411, 37559, 28510, 28325, 34417, 30690, 26803, 36755, 26177, 31310, 29560, 21570, 39122, 38971, 26512, 24086,
  25079, 26092, 35041, 28937, 28417, 23652, 20010, 36300, 31896, 24441, 25562, 40300, 40140, 39547, 32602, 26206, 20054, 25615, 23700, 27694,
  29730, 31929, 30872, 25273, 39575, 28228, 29599, 40482, 27832, 35475, 27489, 21066, 33216, 38112, 28414, 25000, 26694, 32791, 25688, 36131,
  38556, 36192, 36986, 29764, 25622, 40441, 36394, 27511, 23994, 33907, 29796, 20489, 28500, 25298, 32113, 25454, 34924, 40595, 21862, 24597,
  39748, 31363, 20405, 28858, 34217, 29864, 32626, 33980, 21441, 28845, 39006, 28800, 35752, 32838, 34631, 20900, 36720, 35028, 31909, 28072,
  27778, 27836, 27770, 24724, 22781, 22809, 33660, 299, 25353, 25285, 22570, 21329, 23563, 33519, 22434, 24561, 28640, 35980, 39554, 28557,
  38753, 35868, 39208, 29852, 38577, 25332, 30636, 25200, 36829, 38143, 32895, 30651, 29369, 31659, 37193, 24456, 21214, 23713, 29166, 34106,
  34224, 32538, 38189, 26963, 32489, 30563, 33445, 33575, 32202, 22368, 36764, 36744, 24808, 25644, 32704, 24163, 38224, 28051, 25947, 38170,
  37679, 20973, 22484, 21155, 21519, 31964, 27978, 34899, 31309, 21364, 21049, 33948, 28335, 39173, 30606, 38196, 38044, 31869, 25513, 23401,
  31805, 39514, 32959, 37021, 35871, 283, 20740, 24739, 32066, 35167, 36330, 29509, 27809, 28003, 28186, 30174, 33086, 28388, 20932, 27495,
  37782, 26592, 24907, 25810, 27844, 30361, 26194, 38485, 26623, 38175, 33181, 25569, 28629, 24490, 28153, 25975, 27171, 35215, 25370, 22336,
  35542, 26666, 20183, 31281, 36996, 27679, 36767, 35867, 35852, 35676, 38181, 20111, 38400, 38191, 34506, 25764, 25199, 38046, 29518, 37636,
  37528, 33579, 23847, 20387, 20062, 27450, 30244, 31726, 27872, 38426, 28625, 38067, 33610, 21682, 34638, 21368, 32781, 25668, 24825, 22764,
  36785, 26577, 39037, 38089, 31066, 35079, 25381, 34532, 27838, 33039, 25214, 22285, 20419, 36051, 26414, 25380, 37066, 26082, 33285, 32102,
  21653, 39563, 22846, 37165, 37428, 27986, 37238, 23617, 33586, 36843, 28975, 26224, 25138, 39511, 33336, 39533, 32930, 32610, 23265, 26632,
  31632, 36825, 37550, 35469, 39717, 32302, 24868, 37084, 20189, 36882, 21218, 333, 36144, 31925, 30168, 23014, 32564, 25597, 24682, 33333,
  33399, 33889, 37586, 21467, 29987, 31401, 23884, 25970, 33988, 27899, 30044, 25234, 38907, 38917, 25674, 30083, 12398, 28911, 21523, 25098]

def chars7 : List Nat := [
  33146, 35122, 30435, 35875, 24288, 36845, 37154, 35855, 36617, 25282, 33550, 20465, 26020, 32000, 39076, 23581, 27813, 32722, 28126, 26151,
  36877, 21992, 27060, 33253, 23308, 20596, 21048, 28183, 38620, 38275, 30428, 33351, 21932, 35814, 31171, 25505, 27739, 21568, 21388, 21898,
  35330, 35338, 29130, 26629, 35488, 22829, 30385, 34523, 30691, 40180, 25912, 40629, 20924, 20736, 26185, 28644, 33683, 40778, 26214, 31459,
  25238, 65367, 12461, 22715, 23229, 25943, 28154, 30977, 33616, 20272, 39539, 33329, 32496, 23462, 27893, 23534, 38604, 33040, 33290, 32396,
  24361, 32652, 25292, 29923, 25119, 39635, 26257, 23158, 25749, 35905, 31487, 38553, 35859, 38102, 26060, 34662, 31207, 25110, 39074, 20817,
  21413, 40132, 26242, 27774, 38045, 26464, 36023, 33490, 29254, 28810, 31968, 30718, 25026, 20375, 21083, 22727, 24115, 27331, 27584, 28263,
  25417, 32244, 31382, 32209, 27837, 39307, 26021, 37109, 21895, 22427, 27010, 20204, 23682, 33102, 37555, 23735, 28889, 25504, 27996, 27896,
  37292, 27825, 34103, 30350, 27035, 27280, 38307, 25260, 38991, 27233, 38235, 22602, 30433, 22767, 38772, 20133, 37210, 31364, 32923, 20120,
  31967, 28888, 35970, 35611, 29408, 31397, 36077, 36032, 33694, 31637, 29242, 21912, 20294, 21654, 32340, 12356, 24447, 21796, 34121, 20725,
  29100, 22931, 36393, 38130, 21273, 25745, 24347, 32827, 20002, 22581, 33213, 21400, 36776, 29922, 23860, 31729, 30910, 30036, 28061, 33178,
  32475, 40655, 23633, 34909, 31783, 26462, 36722, 36146, 28317, 28919, 38695, 22645, 30270, 39049, 20991, 24413, 35803, 35370, 39854, 35258,
  27506, 31391, 36913, 33502, 28639, 21471, 29229, 26894, 30274, 30526, 23529, 25291, 26840, 35776, 40515, 20518, 25830, 26274, 37228, 34850,
  32862, 22247, 24478, 33032, 32518, 38475, 21738, 37247, 23046, 23629, 27308, 25447, 20955, 38774, 30115, 39192, 40522, 38499, 26137, 26638,
  40150, 38262, 39108, 28907, 33436, 22438, 30307, 34814, 33828, 23507, 35386, 34444, 38664, 35784, 36000, 21564, 30137, 32299, 21063, 40573,
  21834, 25443, 21208, 20463, 38497, 21486, 36, 39281, 23532, 24101, 28479, 25496, 26874, 27742, 38069, 12371, 32504, 25324, 28610, 22750,
  36530, 25318, 37675, 25311, 38048, 22043, 36235, 36963, 35856, 22687, 21927, 27053, 38281, 31579, 65354, 28212, 23784, 23344, 24051, 26786,
  28465, 30116, 31049, 30717, 30162, 21693, 36992, 32512, 24199, 34388, 30415, 32703, 25233, 21480, 24337, 21787, 20369, 36042, 31293, 40680,
  22941, 35853, 33985, 12414, 34115, 34268, 36184, 35806, 30519, 22815, 23723, 37347, 21891, 27153, 38062, 37610, 29281, 28340, 32533, 28346,
  28319, 25551, 28218, 34261, 32986, 21032, 29557, 29740, 23517, 31287, 32526, 38152, 38656, 36941, 37275, 25132, 22124, 38384, 34083, 21332,
  38911, 39023, 39166, 21410, 38039, 27631, 35810, 31786, 22533, 40748, 36002, 36973, 32920, 29157, 30776, 36286, 35924, 34770, 28136, 24287,
  21777, 65370, 35808, 22445, 40860, 21093, 36774, 32753, 25384, 23805, 32023, 25304, 32482, 30068, 34108, 38582, 28291, 28611, 30860, 23443,
  36276, 27988, 25630, 25386, 26974, 37000, 34385, 25420, 33289, 23252, 28435, 25467, 36917, 21602, 30782, 35884, 29733, 25774, 28310, 21980,
  23427, 35696, 26044, 22519, 38996, 21283, 28952, 29421, 28065, 34900, 38746, 31072, 38601, 30140, 38230, 22179, 39608, 12435, 35388, 24674,
  20945, 19984, 35998, 34553, 21621, 26172, 34505, 32755, 21248, 20390, 35373, 36711, 25613, 30439, 21481, 36889, 36321, 35861, 36852, 40151,
  28821, 29678, 12459, 21632, 25605, 30699, 30697, 31629, 28196, 29417, 33499, 21180, 28641, 24908, 21185, 33131, 33324, 37196, 24469, 24275]

def chars8 : List Nat := [
  29134, 39047, 27197, 27086, 38013, 25684, 35829, 27135, 29712, 22604, 38203, 39000, 39015, 33806, 12399, 33179, 31067, 27284, 34849, 35320,
  34412, 35527, 21917, 23089, 22122, 32960, 35088, 30123, 26413, 26121, 21617, 31146, 20661, 23660, 20342, 22432, 36031, 33901, 40801, 33830,
  34148, 29146, 35, 21137, 24421, 26839, 32016, 27975, 27762, 33276, 21646, 32104, 35065, 33580, 21397, 20670, 37323, 31229, 39045, 36454,
  20040, 22047, 38179, 33147, 23504, 22962, 28227, 37276, 21478, 27886, 24130, 29508, 28357, 29619, 27696, 38808, 23789, 40514, 21957, 12425,
  29785, 21683, 34647, 29935, 29495, 27198, 36174, 22905, 26389, 28096, 38913, 39129, 32641, 38226, 21890, 34972, 38074, 25161, 26310, 27387,
  26355, 36757, 24103, 35492, 21700, 28467, 20115, 38533, 35380, 34728, 33390, 35672, 36969, 35791, 39285, 20456, 37094, 22387, 40285, 31014,
  35090, 29319, 38552, 21679, 36212, 31478, 20491, 21123, 27580, 30555, 31350, 20834, 32233, 32416, 24807, 36341, 36524, 24815, 31264, 24809,
  31204, 22196, 33537, 28654, 20137, 25004, 25769, 36180, 28174, 38208, 27764, 23138, 33769, 37758, 38192, 25376, 27889, 27607, 19973, 29742,
  30183, 30179, 22549, 37145, 25619, 12394, 34157, 36198, 32774, 31245, 38570, 33005, 27810, 23148, 30024, 28822, 27595, 34583, 29042, 38119,
  20006, 24282, 20296, 34905, 33639, 38053, 40687, 38643, 21544, 38124, 35531, 37775, 37321, 26685, 39438, 30938, 24290, 37090, 20547, 36062,
  22890, 39699, 40141, 20047, 36466, 30447, 12540, 12367, 12375, 12450, 23541, 24758, 27083, 29001, 31935, 32118, 35819, 29401, 38078, 25973,
  20607, 38148, 23019, 24161, 25139, 28601, 22383, 28655, 39560, 23305, 30732, 22241, 23782, 28437, 38398, 38221, 32624, 32907, 36944, 33636,
  31373, 32510, 24623, 25658, 40516, 25100, 20979, 34153, 25545, 26584, 20887, 38920, 34109, 28956, 39535, 39449, 39479, 24691, 20936, 31809,
  35387, 20643, 20941, 38701, 29240, 35584, 37231, 28173, 39423, 32462, 31922, 34935, 33899, 39686, 27841, 25475, 25784, 21591, 30889, 35800,
  36106, 22376, 33449, 22412, 33585, 22618, 27953, 40786, 23258, 31686, 29807, 36137, 12365, 21843, 22666, 28507, 28734, 39269, 31546, 36735,
  31966, 31684, 22066, 21878, 32380, 25414, 25314, 33043, 28197, 35845, 36841, 28921, 28689, 23013, 32550, 34502, 27609, 33125, 30184, 21930,
  12395, 22756, 39282, 32964, 28122, 28657, 30710, 27760, 12494, 39154, 23219, 30956, 30778, 21884, 30239, 25160, 31040, 38968, 34310, 38056,
  39347, 20323, 39719, 33282, 32745, 34656, 25379, 35480, 34544, 20314, 36761, 36993, 22615, 36076, 22636, 22509, 35824, 22331, 25303, 32829,
  31103, 29856, 29898, 29667, 12383, 20786, 26820, 36753, 28792, 29409, 32191, 27516, 31975, 30328, 25771, 24119, 38256, 20457, 22404, 21215,
  21972, 28389, 37832, 20731, 39309, 23100, 25735, 23869, 34434, 37226, 24639, 24875, 24264, 29711, 26800, 20123, 24676, 30109, 27012, 29722,
  12426, 12522, 22930, 26482, 26979, 27084, 27103, 23418, 26727, 26688, 29298, 25101, 24171, 26062, 38115, 36538, 21059, 38197, 21596, 23244,
  21076, 39381, 35854, 32474, 30505, 38409, 39376, 35342, 39493, 33099, 30201, 20874, 39295, 30917, 20045, 27617, 30420, 31751, 27542, 35500,
  31681, 35186, 25874, 39825, 21702, 36978, 36983, 31104, 36084, 37040, 36556, 22850, 20492, 33630, 33505, 33527, 22323, 33692, 33642, 33728,
  36600, 32697, 29200, 30906, 35731, 30316, 29554, 31811, 22431, 22894, 25850, 26248, 28716, 34015, 28293, 30117, 23626, 32177, 28908, 23888,
  38599, 36461, 20474, 25950, 30770, 28067, 38417, 32886, 36423, 31983, 28797, 28140, 39585, 21527, 30130, 37686, 29390, 28457, 27883, 27887]

def chars9 : List Nat := [
  25794, 40555, 26547, 21097, 38891, 25880, 24578, 38229, 35772, 29277, 35695, 33176, 24822, 38133, 38079, 38932, 30800, 28046, 39534, 35014,
  35126, 25421, 32465, 30152, 35347, 33152, 25080, 40255, 20800, 36010, 22741, 38588, 28577, 36481, 31209, 34461, 21756, 28132, 30402, 21501,
  36949, 36953, 27396, 35779, 37079, 21165, 20556, 20524, 38433, 33493, 35858, 33682, 22485, 36664, 33897, 34152, 29211, 29234, 29158, 25341,
  35738, 24764, 31840, 12469, 20308, 25654, 26316, 32033, 25335, 32249, 22204, 34249, 38893, 39290, 32171, 21754, 33046, 21557, 12417, 12385,
  30178, 21983, 39304, 24254, 29566, 29520, 37434, 36460, 30933, 24867, 33081, 20698, 22108, 21311, 23114, 21860, 23611, 39543, 39591, 32362,
  21994, 36179, 28383, 37569, 25198, 32446, 25772, 39299, 26429, 30232, 21971, 29781, 21857, 12392, 40605, 21024, 27733, 32999, 38555, 36732,
  25520, 35773, 38924, 30251, 38237, 39059, 28053, 33335, 24958, 24962, 30294, 37219, 40499, 27513, 32737, 24092, 31668, 31660, 39588, 30164,
  23035, 33286, 36163, 22079, 35294, 36988, 21780, 21799, 26751, 23363, 20525, 20565, 33450, 36493, 32305, 30305, 33816, 22535, 36628, 25885,
  25818, 24575, 34044, 36781, 30861, 24951, 12363, 12354, 24330, 21854, 24398, 28760, 29033, 32521, 24465, 32186, 33626, 31469, 31807, 20513,
  36225, 37340, 32503, 12416, 37159, 12514, 22446, 23445, 28583, 25778, 37574, 27908, 34321, 27192, 24792, 35813, 25134, 27028, 28390, 12422,
  28356, 23057, 38387, 23254, 31735, 25423, 28255, 24700, 38422, 34719, 33210, 27814, 27852, 24124, 29585, 21827, 40550, 40542, 23167, 25601,
  24816, 29783, 31607, 12490, 12427, 22070, 26535, 26485, 32948, 33421, 26279, 26406, 32458, 26505, 25387, 22880, 26693, 28493, 36758, 26247,
  25150, 40859, 38199, 22075, 65361, 30684, 28953, 29786, 22831, 12531, 34784, 35261, 20939, 37232, 26028, 36011, 33008, 38504, 28825, 35598,
  35468, 39912, 40072, 21310, 40133, 25327, 20689, 21714, 24677, 29848, 35879, 35767, 20348, 20311, 30072, 31713, 31388, 28039, 33432, 24321,
  22737, 35887, 33581, 20925, 36040, 33789, 29145, 30784, 25571, 39683, 36186, 24608, 31567, 29322, 30050, 12479, 24354, 24396, 27794, 28712,
  32143, 31384, 24760, 32190, 26551, 25441, 39050, 30141, 27822, 36746, 31636, 12467, 24148, 12481, 31921, 37168, 24871, 25203, 12418, 37411,
  38747, 37709, 26613, 33382, 35763, 28062, 27983, 24701, 26869, 23780, 21866, 34383, 21970, 24501, 30844, 28267, 24581, 23250, 30054, 37749,
  34065, 32761, 36911, 28210, 32371, 37406, 30464, 32502, 38030, 32537, 29706, 21595, 31167, 24307, 25078, 26964, 30131, 34875, 12521, 21672,
  29838, 25797, 37969, 28805, 33100, 31071, 34193, 36728, 26302, 33134, 29606, 29563, 12429, 12525, 20642, 25001, 21536, 30562, 20605, 24971,
  34847, 38076, 25410, 20504, 38859, 25487, 29934, 38255, 30535, 28867, 24920, 30302, 30315, 27529, 35866, 39559, 39052, 39053, 39253, 32793,
  12402, 37225, 27048, 36752, 21000, 36012, 36926, 32509, 33967, 34468, 40107, 40632, 36802, 40119, 33222, 36142, 20318, 29760, 30195, 20418,
  21537, 21673, 21623, 21833, 25844, 25812, 34926, 20694, 23348, 36245, 36395, 40565, 37050, 30306, 36649, 33715, 33852, 34309, 40157, 40144,
  25776, 29801, 30219, 24936, 32318, 29637, 21719, 12360, 12471, 22684, 24190, 25014, 25854, 29029, 32027, 26728, 32097, 20165, 12473, 35074,
  38416, 27962, 27249, 27945, 36140, 37336, 21589, 30111, 12420, 27950, 12387, 27667, 27572, 36836, 12518, 12390, 20594, 25488, 32361, 33247,
  33192, 28425, 26297, 37499, 22953, 37467, 29669, 37013, 32961, 27000, 29906, 21485, 25115, 39542, 28820, 38542, 37970, 32558, 33107, 32824]

def chars10 : List Nat := [
  33114, 38296, 26697, 24643, 27001, 27257, 34001, 26624, 20406, 31820, 12397, 26003, 30066, 39019, 38131, 30757, 34581, 38198, 31068, 38107,
  21822, 23879, 34946, 20335, 27523, 23155, 25212, 26152, 36205, 35424, 20356, 36381, 20621, 31162, 36007, 32566, 38718, 37039, 34586, 32741,
  25527, 32596, 34685, 35178, 24590, 35576, 26011, 35516, 40091, 23198, 28466, 21526, 21489, 35674, 35709, 28472, 40494, 37061, 33431, 36111,
  36024, 20149, 20430, 21070, 20440, 31705, 27671, 33645, 33706, 33848, 33981, 12510, 22844, 34259, 29309, 40023, 32326, 38034, 29648, 31337,
  33071, 29674, 12373, 12376, 12369, 12456, 12463, 24394, 25356, 26249, 26847, 36382, 33392, 32516, 37237, 36739, 31998, 31961, 12362, 12513,
  37312, 21908, 21886, 31699, 25523, 25319, 21734, 27691, 12388, 25721, 24726, 21981, 27796, 33287, 30511, 34914, 23049, 21078, 23270, 23351,
  28270, 32363, 33302, 37396, 37274, 24214, 39314, 28491, 36923, 32843, 32406, 28538, 36955, 28402, 32457, 32448, 30970, 33747, 39031, 29600,
  28114, 25375, 30187, 40556, 40563, 38321, 20597, 33007, 29824, 23094, 29969, 36760, 39751, 12523, 23947, 27067, 26440, 26165, 40653, 22605,
  19999, 24675, 12428, 34962, 25374, 38146, 26070, 38084, 25472, 30758, 33300, 29159, 31252, 28460, 34578, 35070, 28696, 26283, 22158, 34471,
  21254, 25494, 38129, 35426, 25803, 29129, 22778, 36009, 29243, 34597, 32742, 20164, 34690, 30759, 21422, 31889, 21277, 21505, 35918, 34676,
  34496, 21068, 27507, 36956, 21658, 28198, 35764, 35876, 25248, 20718, 20433, 24258, 25765, 33448, 35817, 33451, 24061, 33507, 33588, 33615,
  33524, 36068, 40569, 31061, 36910, 34191, 30679, 464, 31117, 30241, 32251, 28074, 21804, 12452, 38049, 38649, 20497, 20807, 20812, 21211,
  21085, 25582, 25852, 25944, 27556, 28753, 28892, 25578, 32156, 25315, 32094, 26604, 31224, 32210, 22466, 36891, 36894, 28353, 40637, 25549,
  23704, 34948, 22391, 32350, 30610, 32880, 39627, 23628, 39041, 21828, 20632, 30133, 23301, 23810, 24473, 21584, 22139, 24407, 38385, 23525,
  22163, 28514, 30596, 23162, 39580, 39584, 32424, 37390, 23916, 38406, 24224, 24751, 21057, 30631, 32540, 37195, 30322, 21500, 12496, 30136,
  26973, 38346, 25620, 29815, 12488, 25111, 38493, 23067, 26618, 34085, 29232, 29522, 34837, 26483, 33074, 38289, 23408, 34186, 27204, 35109,
  33002, 33137, 20173, 33160, 36170, 31441, 21034, 23382, 25793, 22349, 22761, 25448, 38153, 36299, 12495, 29060, 27795, 28237, 24789, 28950,
  38031, 38068, 39301, 30330, 20970, 26348, 30300, 32806, 31368, 22852, 31806, 34835, 34733, 33278, 21553, 39882, 27675, 21643, 24505, 22121,
  20060, 23404, 25558, 40720, 37290, 25788, 34480, 34510, 40095, 24090, 34071, 21389, 39729, 35811, 32687, 34579, 30405, 35477, 34619, 21089,
  31756, 31605, 37194, 24596, 36159, 12415, 24530, 21499, 21522, 25783, 36958, 24257, 20442, 36103, 21206, 22804, 33483, 35812, 22654, 36064,
  35890, 28149, 40766, 33724, 36655, 33776, 28399, 34222, 25542, 36783, 39663, 29792, 30353, 30414, 21710, 31095, 12454, 20767, 21421, 22022,
  22151, 23359, 23997, 24977, 25010, 25892, 26716, 27311, 28222, 28233, 28544, 32137, 32184, 32239, 30106, 20500, 31545, 30787, 28681, 22952,
  12512, 26658, 29477, 33193, 24716, 37446, 24730, 23622, 38086, 23854, 21990, 31657, 23649, 39287, 28095, 23090, 23059, 23048, 22986, 25736,
  25288, 37762, 35755, 37682, 23882, 29494, 21533, 38713, 28337, 32680, 29749, 24642, 29732, 30090, 20956, 22545, 29682, 29990, 26758, 31568,
  31344, 29920, 39250, 40490, 30129, 40521, 29481, 30146, 22040, 30208, 38312, 38313, 24806, 20393, 25941, 26720, 36169, 20282, 27539, 29343]

def chars11 : List Nat := [
  21766, 38619, 28100, 21197, 12524, 39125, 29549, 34367, 35769, 12527, 39144, 38929, 36255, 20398, 34645, 24779, 30875, 29109, 38052, 30802,
  39119, 34796, 30545, 31262, 30430, 25836, 21240, 25799, 39389, 31392, 32786, 35057, 12378, 25022, 26312, 34563, 12498, 31800, 24974, 39986,
  25949, 35586, 26590, 37300, 34873, 34486, 32725, 38606, 38610, 36310, 21868, 35494, 38080, 34615, 36426, 36476, 35463, 34594, 36343, 35609,
  21681, 20267, 12511, 21587, 35794, 20495, 37169, 20508, 33470, 33542, 38442, 35844, 35865, 33441, 38551, 33422, 33583, 33607, 28670, 40848,
  33752, 33759, 40779, 34162, 25516, 25194, 36703, 29165, 25462, 24162, 462, 40149, 30394, 32283, 25179, 31298, 12468, 12475, 12462, 22137,
  22707, 22892, 22989, 23236, 24942, 27096, 28765, 27099, 20238, 32129, 28567, 30153, 21119, 25733, 32203, 30571, 31565, 33334, 33760, 30663,
  24598, 29462, 468, 37108, 26941, 12458, 26264, 29539, 32660, 24210, 25474, 37440, 28766, 37723, 39063, 40578, 28015, 37573, 37624, 23518,
  20341, 37532, 23762, 21913, 21999, 24527, 28367, 32353, 27788, 33240, 27821, 38408, 22994, 33530, 28354, 28121, 27753, 23230, 33398, 23281,
  33670, 26333, 37648, 25730, 36868, 36881, 39311, 22271, 22016, 24365, 21870, 30399, 27898, 32399, 22103, 27465, 29582, 24708, 29657, 32556,
  32557, 25824, 24887, 24653, 40489, 39180, 40529, 34870, 30102, 30229, 27016, 26916, 38343, 36779, 29805, 27690, 27051, 26164, 26141, 25325,
  27538, 33096, 26526, 26507, 38567, 33129, 22922, 33990, 26990, 26552, 36743, 33226, 31406, 29743, 31131, 24665, 12493, 25413, 39123, 30522,
  34407, 21237, 39003, 34718, 39165, 24140, 34811, 25642, 30755, 38251, 26212, 34314, 33796, 34315, 30883, 38948, 35820, 38231, 26783, 30271,
  34460, 34930, 32835, 39342, 39378, 39040, 34758, 34749, 34696, 21727, 22575, 28376, 39070, 39066, 39067, 34884, 24499, 28824, 35442, 35443,
  22221, 23413, 39881, 35548, 20127, 34500, 34490, 34949, 34942, 36405, 26015, 23387, 31655, 32671, 31503, 34511, 36315, 40201, 34541, 40063,
  36468, 20213, 26280, 34568, 37200, 40081, 39634, 31721, 35290, 39899, 28701, 25722, 21725, 21606, 21903, 21708, 21691, 28703, 39675, 20451,
  36090, 36104, 28396, 37060, 36452, 22665, 20447, 20649, 20558, 20988, 33628, 38495, 36123, 38541, 37019, 22433, 33632, 25703, 33793, 33704,
  33932, 23996, 31255, 25479, 34120, 40162, 38819, 38789, 29771, 31434, 31844, 34516, 29502, 31876, 12364, 12472, 42, 20245, 21408, 22063,
  23022, 24300, 25662, 28497, 35749, 32115, 21914, 38128, 30839, 32098, 12377, 25600, 25530, 30831, 27590, 28609, 23748, 24155, 21737, 21899,
  21877, 23146, 28905, 29469, 36856, 12516, 27961, 37613, 25731, 25287, 33215, 33229, 37476, 24763, 21969, 21974, 21905, 39276, 29750, 25077,
  22123, 24545, 24629, 23360, 23000, 28518, 24582, 30768, 34091, 34256, 20050, 23275, 39571, 23394, 32417, 23402, 27782, 27860, 37656, 24591,
  24249, 25249, 37561, 24005, 24696, 36946, 36968, 29406, 28111, 30321, 32481, 32429, 25190, 29602, 32546, 32549, 29671, 36527, 30079, 40491,
  40497, 40488, 27166, 25032, 34885, 40535, 24826, 39187, 34865, 30193, 21256, 27017, 26982, 12393, 12424, 40843, 25122, 31494, 38635, 38580,
  25816, 26451, 29261, 22199, 27183, 30775, 36717, 26633, 35281, 38358, 26601, 33133, 25422, 27176, 26544, 37956, 38309, 28407, 28951, 22036,
  34555, 33011, 21235, 27481, 34330, 30640, 34722, 12431, 34836, 26027, 30765, 26051, 38023, 35114, 28874, 28108, 38093, 38096, 40501, 29096,
  38116, 38114, 38228, 38982, 30290, 20721, 23191, 29703, 22039, 31462, 30272, 31174, 34943, 31452, 34691, 34798, 32578, 34739, 20653, 22816]

def chars12 : List Nat := [
  34684, 39509, 22094, 12404, 20374, 35390, 23323, 35616, 34584, 37218, 36280, 37261, 12501, 27726, 21269, 27664, 34451, 34476, 40098, 35559,
  34484, 35363, 32166, 35594, 40169, 39522, 34547, 31378, 30260, 31539, 40117, 22065, 35992, 30590, 20324, 35408, 31742, 34552, 35988, 31755,
  31418, 21371, 21775, 21671, 24931, 27470, 28884, 40442, 12409, 36101, 21005, 36447, 40658, 33405, 22528, 40388, 22405, 21232, 22381, 35860,
  20971, 36060, 35872, 20472, 22419, 40692, 37044, 22314, 36070, 33637, 21067, 20693, 38491, 36611, 33669, 33640, 33563, 33750, 36676, 34233,
  25466, 39600, 25528, 31118, 12293, 33105, 31429, 29593, 29589, 12372, 12358, 12379, 12366, 12464, 20502, 21426, 21816, 23018, 22985, 23522,
  23839, 24765, 26570, 26855, 27567, 28234, 28252, 28528, 39607, 32051, 12477, 31923, 32057, 32162, 32180, 21474, 27960, 33162, 24813, 35962,
  23029, 36487, 30318, 28348, 23724, 37318, 39715, 21852, 21937, 21949, 12384, 12480, 40638, 29463, 25602, 33369, 24722, 24853, 25034, 30585,
  33059, 24949, 24756, 25062, 28049, 26238, 22092, 22116, 24534, 39284, 39296, 39293, 36989, 36995, 36837, 28101, 38377, 32901, 22024, 37804,
  33534, 22003, 36851, 27752, 38396, 23210, 31893, 39581, 23346, 23411, 36756, 25371, 29433, 36886, 38410, 23938, 24079, 37365, 32629, 37138,
  22073, 24699, 38423, 37251, 27802, 35781, 20346, 26336, 32471, 32450, 35892, 33736, 32524, 32535, 32529, 32543, 37858, 33651, 23352, 34937,
  34886, 34894, 40503, 30207, 25126, 26891, 30634, 12489, 33960, 29053, 33515, 21861, 38002, 21558, 29924, 27063, 25121, 38348, 38584, 27673,
  12491, 21550, 34292, 27047, 34402, 26932, 30264, 24913, 26674, 32915, 38587, 34054, 27553, 27122, 26188, 36721, 26689, 26492, 34101, 35280,
  25172, 26743, 29295, 29266, 32983, 33368, 34092, 40131, 26818, 38370, 26873, 36157, 33211, 28687, 20677, 26163, 28451, 23149, 24838, 24666,
  34387, 40669, 38111, 34680, 40672, 31203, 39164, 39171, 32633, 30964, 30779, 38161, 38960, 38178, 31028, 38930, 29032, 32486, 28947, 38940,
  30743, 30867, 30502, 30855, 36834, 38217, 31213, 38238, 35466, 38063, 30568, 27453, 40039, 31001, 29610, 30250, 39214, 34941, 21761, 34921,
  34978, 32796, 40495, 30113, 39341, 23791, 12474, 27686, 12403, 36362, 34427, 39078, 39055, 39060, 28371, 36943, 28626, 12500, 40078, 40840,
  38670, 37260, 35489, 20263, 39319, 24319, 34467, 36441, 34426, 31496, 34590, 35039, 21117, 34481, 31689, 35131, 34512, 40115, 40066, 33743,
  31992, 32679, 20169, 31530, 32327, 38757, 36211, 40069, 31932, 31937, 31933, 40118, 31267, 20258, 36409, 39952, 34649, 34735, 31949, 20327,
  39995, 28137, 28666, 24338, 27005, 23332, 21588, 21343, 25826, 21711, 21735, 21604, 21636, 21659, 29885, 30442, 22244, 35754, 35827, 35804,
  23743, 40289, 20454, 40572, 40617, 36368, 37063, 22489, 37103, 12508, 33551, 33407, 20467, 38449, 20367, 20478, 33562, 33557, 20552, 33484,
  33617, 36022, 33044, 22725, 40403, 35894, 40407, 37043, 32696, 22456, 33500, 40474, 20325, 33638, 33531, 25623, 40020, 31296, 40849, 33661,
  36671, 33910, 33997, 34022, 33733, 34021, 24976, 23136, 34326, 36686, 25275, 25534, 25419, 36795, 40055, 40024, 35846, 29794, 36424, 31076,
  30217, 32311, 32323, 31365, 31431, 29592, 29591, 31911, 31230, 9523, 30045, 12374, 12470, 12465, 25672, 20253, 22162, 22702, 22970, 24128,
  24303, 24409, 25711, 26506, 27365, 27320, 27737, 28527, 29010, 29014, 12381, 39606, 32221, 32224, 32236, 32058, 21417, 32076, 38801, 12370,
  28550, 35863, 25507, 36364, 20360, 28893, 23571, 26326, 32731, 22300, 22055, 21919, 21945, 22007, 21808, 22403, 32412, 35826, 27194, 29999]

def chars13 : List Nat := [
  27870, 1090, 23105, 27981, 28000, 27976, 28118, 1089, 24870, 24774, 24999, 24820, 24749, 37521, 39621, 32894, 27812, 24980, 28052, 27955,
  28327, 27740, 27722, 23814, 28303, 35692, 24408, 36869, 27670, 28172, 39544, 39549, 27791, 39552, 39583, 23319, 33514, 23580, 32419, 37484,
  37389, 29368, 21988, 22228, 22237, 39316, 36875, 23632, 23409, 37554, 28078, 37457, 28338, 29389, 22052, 24229, 30738, 28532, 28244, 25279,
  38415, 32631, 29431, 24081, 24697, 22913, 28536, 28556, 39297, 37664, 37142, 37604, 24450, 31423, 24298, 22947, 22848, 23680, 32506, 39633,
  12391, 32515, 39036, 33686, 27845, 33624, 33689, 40502, 30344, 40498, 21936, 30132, 40520, 30180, 40551, 30218, 27769, 30100, 39235, 28651,
  27008, 26946, 26987, 38322, 38331, 30923, 26444, 29825, 29761, 20916, 25497, 27703, 36749, 38399, 34154, 32386, 27645, 27653, 27672, 27073,
  26520, 34220, 32956, 26692, 37938, 34184, 26634, 22674, 35271, 38357, 35278, 34196, 27216, 26269, 32973, 22013, 33003, 36738, 29325, 25352,
  33187, 27305, 22081, 28652, 21764, 29746, 30176, 27497, 40668, 24747, 30876, 30712, 27414, 27571, 26052, 27449, 27586, 35837, 20850, 34396,
  21633, 30653, 30589, 25744, 28586, 30857, 22263, 39138, 38168, 34821, 34829, 30962, 39025, 23625, 32010, 38860, 30468, 30457, 38252, 38210,
  39065, 28997, 26017, 38059, 31189, 31211, 21742, 30544, 38066, 30554, 28693, 39387, 12401, 39361, 39364, 22044, 28288, 34789, 31775, 21549,
  21545, 38633, 38704, 39985, 12406, 12502, 35641, 25144, 37294, 37253, 36457, 12405, 28593, 38113, 35538, 21317, 22239, 35981, 40715, 40717,
  32580, 33296, 34632, 40099, 39730, 20073, 31492, 34609, 32750, 37095, 31509, 34601, 34537, 40105, 37694, 36470, 39425, 31644, 40110, 36294,
  20200, 36189, 35914, 21294, 28088, 31525, 31906, 36199, 30633, 36324, 30529, 20233, 35183, 35788, 31578, 31564, 39439, 35913, 31959, 21056,
  28702, 22050, 21579, 37007, 21554, 21634, 21792, 21510, 21716, 21845, 29964, 35750, 35807, 27526, 40751, 20394, 12411, 37075, 35830, 35840,
  20526, 40649, 40665, 22395, 20822, 33691, 33476, 36019, 36118, 38508, 35862, 20603, 20821, 20645, 30042, 40367, 38536, 35877, 35882, 40306,
  20717, 36177, 35886, 22057, 30033, 25884, 30309, 20385, 33696, 33641, 33820, 36604, 23172, 34216, 34212, 34134, 34241, 36822, 34303, 34364,
  22849, 25540, 23596, 25334, 29172, 29403, 30945, 30951, 30959, 466, 40148, 40159, 40143, 40142, 40064, 40121, 29795, 21769, 30364, 30366,
  24814, 37112, 31064, 25577, 32346, 34993, 29661, 29680, 31153, 30060, 12368, 30543, 20058, 20499, 20510, 20702, 20791, 20760, 21867, 22190,
  22127, 22471, 22487, 22453, 22626, 22893, 22944, 24112, 24693, 24996, 25406, 25715, 25898, 26278, 26256, 26568, 26498, 26866, 26856, 27137,
  27091, 27315, 27600, 27921, 28274, 28481, 28678, 35747, 12476, 23241, 32117, 39279, 12478, 22744, 32067, 25225, 32070, 23291, 31631, 31635,
  21072, 24458, 27131, 30900, 25661, 35815, 20235, 30703, 30715, 30597, 22591, 21872, 30209, 23741, 23961, 23692, 23708, 37335, 21883, 21995,
  21879, 25987, 29484, 22821, 33307, 29450, 37414, 39616, 36346, 28056, 36932, 28598, 28005, 28801, 27998, 37544, 27943, 39618, 12484, 33233,
  27862, 24906, 12483, 23058, 36742, 21961, 35888, 23745, 22820, 23733, 29536, 29548, 24864, 23811, 25294, 23844, 24521, 24579, 36980, 36819,
  23081, 32648, 22002, 39303, 22261, 24209, 28463, 40584, 25358, 23678, 28057, 22955, 39628, 12486, 24480, 33443, 33536, 37120, 22149, 24548,
  28486, 30629, 33393, 23256, 39576, 33512, 32751, 29364, 39315, 24601, 36902, 27817, 22251, 24614, 32700, 23883, 23924, 32365, 22265, 22281]

def chars14 : List Nat := [
  37397, 24603, 20051, 21638, 38418, 37463, 24455, 37466, 23991, 35955, 21657, 24744, 24439, 22954, 28461, 22114, 25109, 37445, 39998, 26101,
  40587, 32497, 32432, 37904, 33664, 33730, 27207, 38201, 32545, 37848, 37852, 37885, 30014, 21758, 26155, 39249, 12400, 40506, 40513, 40524,
  40553, 40552, 39201, 30112, 27234, 37846, 25787, 38314, 27032, 26937, 39747, 22250, 38005, 38012, 38172, 28297, 30154, 39079, 33911, 24540,
  26094, 36762, 38494, 34135, 24542, 33169, 33009, 27674, 27698, 29270, 38658, 38673, 39753, 29940, 27521, 36193, 26702, 36168, 32945, 33048,
  27104, 32939, 38287, 33780, 26724, 26536, 27117, 27159, 26709, 35276, 33140, 27160, 38609, 38360, 38560, 38614, 33845, 34113, 27227, 36725,
  26636, 32427, 26740, 26731, 26589, 26384, 34201, 27260, 29989, 36740, 33037, 34126, 29994, 21336, 23455, 26160, 31407, 26108, 27816, 23738,
  28656, 22641, 27757, 30105, 23117, 25094, 24636, 30748, 30720, 38915, 39757, 25074, 25129, 25791, 40785, 29107, 38799, 22210, 34404, 28366,
  30609, 38061, 30030, 30027, 38990, 39761, 25135, 38127, 38123, 27268, 34820, 26066, 38171, 30751, 37214, 28829, 28859, 38073, 32638, 30437,
  38140, 38186, 25149, 22159, 30791, 40699, 40700, 38090, 38092, 38250, 38200, 38935, 30449, 38097, 38037, 38257, 39110, 33094, 31074, 31079,
  35400, 38103, 38223, 39087, 34664, 31155, 38070, 28102, 29306, 24659, 29608, 40008, 25871, 22042, 40674, 1103, 35105, 31400, 31381, 39409,
  22257, 35174, 35045, 35766, 32779, 32821, 35048, 32850, 35097, 35091, 39348, 24924, 27984, 34752, 39641, 12499, 22770, 12434, 21243, 34473,
  34472, 39501, 33280, 35219, 40677, 31808, 33260, 39775, 35437, 23710, 38698, 38585, 40839, 39654, 1077, 24852, 25084, 35617, 35973, 37306,
  37236, 39649, 23853, 40227, 40230, 12408, 12504, 36357, 34826, 40841, 37293, 39515, 31602, 35166, 39933, 36413, 38167, 36292, 36425, 33416,
  36433, 36311, 36314, 40628, 39808, 35461, 20190, 39519, 39693, 40109, 36464, 36302, 20163, 34686, 37213, 35501, 36344, 21493, 39524, 39620,
  35977, 36345, 34843, 31709, 31722, 31576, 34670, 34548, 34660, 34567, 40842, 40075, 40125, 39851, 34360, 36347, 35960, 36361, 36383, 29424,
  36188, 21006, 39530, 39706, 40094, 39561, 21939, 31716, 35382, 39638, 34569, 36416, 20317, 20088, 27834, 29709, 29710, 24022, 31142, 9583,
  28138, 21670, 25792, 29977, 21590, 21661, 21726, 21757, 21715, 21618, 21717, 21695, 9584, 28471, 31145, 27292, 40434, 39661, 22225, 35778,
  20935, 35816, 20361, 20347, 20274, 40478, 37150, 37099, 37167, 40745, 12412, 36544, 22656, 36578, 37187, 31860, 20517, 22377, 22396, 22406,
  33553, 40512, 30669, 22348, 35857, 38484, 21261, 33544, 38514, 20647, 33596, 33439, 40304, 35864, 20147, 22441, 38576, 35873, 37017, 34980,
  20742, 37190, 40558, 36033, 36035, 20747, 22318, 33496, 36036, 40475, 22493, 22364, 40018, 20034, 26407, 27780, 30202, 31330, 35678, 25847,
  12509, 23330, 33873, 33716, 33705, 33757, 33978, 34000, 33748, 36627, 33977, 33972, 36635, 36603, 40818, 20608, 25326, 34204, 34171, 36677,
  34047, 25449, 25682, 22872, 21263, 25599, 23604, 25247, 25665, 36782, 25401, 25638, 36794, 35870, 30556, 25616, 40156, 40056, 39610, 38834,
  40153, 40073, 40088, 40137, 40145, 35728, 29789, 29800, 38225, 30362, 30374, 30401, 31065, 30155, 30216, 30221, 30227, 29859, 29903, 29912,
  31506, 29654, 35938, 31839, 31916, 1105, 31157, 9499, 9475, 29985, 12407, 12353, 12359, 12460, 43, 29384, 30454, 30508, 30546, 20376,
  20101, 20206, 20150, 20175, 20563, 20516, 20539, 20745, 21473, 21427, 21873, 22112, 22165, 22064, 22125, 22136, 22408, 22421, 22718, 22670]

def chars15 : List Nat := [
  22680, 23032, 22984, 23282, 23238, 23242, 23243, 23809, 23816, 23834, 23842, 24141, 24111, 24059, 24427, 24374, 24746, 24940, 25031, 24985,
  25003, 25403, 25309, 25986, 25890, 25900, 26142, 26272, 26205, 26215, 26232, 26490, 26806, 26812, 27130, 27075, 27089, 27358, 27354, 27565,
  27570, 27939, 27995, 27944, 28272, 28276, 28275, 28152, 28220, 28438, 28711, 28718, 29026, 28988, 12380, 20823, 24803, 32019, 32024, 32028,
  32046, 40536, 32121, 32145, 328, 32938, 12382, 28295, 32187, 32153, 32222, 31984, 20389, 32154, 32189, 32157, 25899, 32092, 32200, 32106,
  32176, 32008, 32078, 32009, 24811, 20816, 23037, 26282, 31591, 24683, 12466, 30603, 30572, 30622, 30586, 30810, 30849, 30771, 30741, 29689,
  30278, 22172, 24775, 28541, 21966, 24132, 37313, 37328, 39617, 21179, 23619, 27999, 32689, 37111, 21889, 21815, 37144, 21896, 37170, 39612,
  21648, 24817, 32381, 32443, 32567, 32584, 20338, 22243, 22790, 29461, 39143, 37439, 37444, 23620, 23898, 32883, 12421, 12517, 23338, 28638,
  23524, 28729, 37706, 37721, 20903, 22793, 24221, 37575, 27911, 27971, 27916, 37616, 38218, 33231, 12515, 24733, 24812, 37526, 28301, 35881,
  33029, 23755, 28028, 24457, 24488, 37059, 22129, 37351, 36994, 27947, 28349, 24731, 24541, 24493, 24580, 39300, 37385, 24472, 37386, 37548,
  37772, 12550, 33461, 33532, 33533, 33547, 23835, 21964, 39312, 39313, 24406, 21675, 28075, 23104, 39546, 33467, 23218, 39579, 33475, 39574,
  39586, 33511, 33517, 37799, 32608, 33294, 38243, 29360, 29367, 22005, 24554, 37683, 27856, 38404, 37558, 29377, 33112, 29394, 29416, 29426,
  22061, 24589, 24617, 28294, 28243, 37087, 32766, 29444, 22105, 27701, 29428, 29427, 24084, 22104, 20769, 28384, 29447, 29434, 30279, 31027,
  26154, 28163, 28683, 8211, 24267, 1093, 12423, 12519, 20906, 32468, 32513, 32449, 26299, 33737, 33771, 29623, 32539, 37847, 33612, 32547,
  33684, 32560, 32559, 37855, 32565, 33698, 37934, 30169, 20452, 25593, 26772, 30093, 40671, 23120, 27711, 40492, 31289, 30372, 31313, 39243,
  39289, 39181, 960, 34950, 40518, 40519, 40523, 30128, 30147, 40533, 40538, 30182, 30204, 40554, 30220, 39194, 39195, 30124, 39237, 30233,
  26436, 29693, 22800, 28066, 26993, 26881, 26864, 38316, 29074, 21978, 27410, 38890, 38000, 38106, 33863, 28069, 28361, 25099, 26908, 28013,
  28581, 34090, 22255, 27705, 27654, 27637, 32772, 27635, 27681, 26619, 34214, 34272, 27689, 27684, 27082, 26474, 26721, 34093, 26359, 33068,
  38286, 33833, 26231, 27546, 27547, 21627, 33782, 26487, 38549, 33924, 38234, 38292, 38603, 36715, 23072, 37944, 26608, 33120, 32987, 33148,
  34234, 36723, 34068, 32985, 33982, 36729, 27278, 29286, 23221, 33154, 32989, 33012, 27307, 38621, 33991, 26345, 29330, 33228, 38306, 33951,
  25394, 33020, 36747, 27287, 24009, 26158, 30863, 23975, 28168, 28408, 31852, 29696, 29562, 9573, 29873, 23779, 25244, 28171, 29833, 1099,
  22259, 26673, 30517, 38881, 25041, 38894, 38910, 34006, 21569, 28018, 28364, 24384, 27428, 38805, 12492, 26005, 36427, 1100, 21993, 30073,
  32600, 38994, 38995, 38999, 39013, 22524, 34674, 27710, 39100, 38147, 32628, 38173, 30729, 38165, 30749, 31012, 30995, 34298, 38077, 34866,
  38193, 38246, 38194, 38184, 38042, 39027, 28944, 21985, 39051, 34782, 34308, 25373, 38258, 38972, 30796, 38973, 38202, 30489, 26925, 30509,
  30874, 30881, 31063, 38105, 38166, 38220, 38227, 38945, 30898, 31114, 39089, 34799, 34756, 38876, 38950, 34624, 34760, 30932, 24529, 39094,
  30937, 24528, 29177, 34851, 29607, 29564, 29953, 31135, 26738, 35700, 31043, 31413, 29754, 20470, 26170, 28181, 8725, 40009, 24281, 29755]

def chars16 : List Nat := [
  29613, 65103, 32265, 28916, 32845, 30292, 30235, 30261, 30240, 39385, 39391, 21938, 30275, 30388, 35042, 32807, 35018, 35099, 32873, 35082,
  35115, 39043, 23196, 26173, 26784, 13217, 22189, 22497, 31765, 31787, 40679, 31718, 31518, 34763, 34769, 34732, 39658, 1074, 34428, 39077,
  34445, 34443, 39498, 39502, 20870, 25455, 26311, 30518, 28379, 28878, 39768, 33355, 33314, 39799, 35438, 23127, 28381, 40835, 40124, 35301,
  40844, 39981, 35628, 39836, 37245, 37282, 37295, 37217, 39879, 39894, 36759, 30504, 22334, 39659, 21358, 20008, 33375, 40702, 33348, 34431,
  40832, 32581, 31654, 34606, 40096, 40101, 38624, 35493, 36277, 36284, 36418, 36282, 22031, 34612, 40102, 35164, 35558, 31672, 31534, 35168,
  31498, 31621, 34623, 37738, 37834, 20155, 35944, 39908, 31658, 31559, 31650, 34546, 34683, 31868, 35565, 40113, 36485, 20162, 35566, 31745,
  39911, 35600, 35504, 40175, 35371, 35912, 34672, 31902, 39914, 40116, 39850, 31524, 31550, 34636, 34699, 34643, 36228, 31948, 40071, 40070,
  40123, 40122, 40080, 36510, 35978, 20261, 39750, 39949, 39853, 39821, 39630, 35575, 40182, 31598, 39470, 35412, 39920, 39856, 31557, 31740,
  34661, 34570, 31941, 37198, 36398, 21055, 35578, 39714, 39573, 40219, 31976, 40138, 24020, 22096, 25876, 20023, 28922, 30488, 35673, 30125,
  20028, 22881, 1085, 9531, 37032, 21722, 21571, 21668, 21593, 36904, 21747, 21622, 21794, 21698, 21825, 21667, 21823, 29625, 30491, 21297,
  22099, 23990, 40761, 25529, 40421, 36479, 12410, 24195, 35751, 36264, 40329, 40343, 12505, 20340, 20350, 40759, 22586, 29136, 40576, 40496,
  12507, 37155, 37083, 37071, 40765, 24900, 23329, 23666, 22558, 22560, 21164, 33412, 37124, 33401, 35842, 35839, 36015, 21182, 33556, 40525,
  38473, 35335, 39727, 33627, 33473, 40298, 40458, 20588, 21430, 36058, 22452, 36128, 35869, 37015, 20743, 33508, 20907, 22329, 22520, 40703,
  37046, 22500, 33548, 35893, 36109, 29765, 30494, 20096, 22389, 27294, 29583, 27783, 32308, 20950, 28105, 40823, 40853, 20626, 26654, 34019,
  33656, 33644, 36674, 33803, 33807, 33785, 34016, 33953, 33884, 29965, 36605, 36606, 29891, 20486, 24035, 29587, 28150, 24902, 64012, 1084,
  25473, 26655, 36813, 34343, 36678, 34170, 34345, 25524, 25453, 32823, 25532, 25290, 25306, 25411, 36796, 30403, 30087, 20545, 29179, 29284,
  29272, 29373, 29346, 30949, 30950, 30971, 30974, 9621, 9661, 40738, 40147, 38780, 38831, 40067, 40074, 40079, 40086, 40089, 40111, 40126,
  40128, 40160, 35715, 35654, 35726, 35734, 29778, 29799, 29803, 29806, 29809, 29816, 30317, 30363, 30313, 30384, 30392, 31020, 31100, 31111,
  30158, 30212, 30214, 30243, 30247, 30248, 30266, 29908, 29914, 29915, 29919, 32313, 32324, 32325, 32341, 31303, 31339, 31370, 31379, 31395,
  31497, 31523, 29594, 29588, 29636, 29644, 29646, 29659, 29685, 31897, 31912, 31913, 1058, 1054, 1051, 1069, 1041, 31212, 31240, 9495,
  9473, 30052, 30063, 12361, 12355, 12503, 12451, 12453, 30503, 30455, 30516, 20106, 20242, 20103, 20209, 20124, 20153, 20176, 20186, 20574,
  20557, 20501, 20503, 20519, 20532, 20533, 20534, 20744, 20701, 20700, 20756, 20762, 21135, 21173, 21130, 21132, 21114, 21447, 21446, 21396,
  21401, 21431, 21915, 21859, 21832, 22279, 22178, 22184, 22175, 22130, 22133, 22141, 22144, 22160, 22538, 22463, 22472, 22470, 22459, 22462,
  22415, 22429, 22430, 22449, 22451, 22824, 22628, 22726, 22672, 23086, 23040, 22951, 22966, 22976, 23268, 23280, 23293, 23213, 23217, 23232,
  23235, 23247, 23249, 23253, 23257, 23592, 23437, 23557, 23594, 23423, 23508, 23511, 23533, 23535, 23539, 23550, 23554, 23768, 23808, 23959]

def chars17 : List Nat := [
  23874, 23868, 23890, 23821, 23824, 24002, 24056, 24057, 24063, 24064, 24097, 24105, 24431, 24793, 24802, 24743, 24745, 24752, 24757, 24903,
  24986, 24995, 25005, 25522, 25219, 25295, 25312, 25316, 25323, 25333, 25336, 25359, 25360, 25363, 25725, 25692, 25707, 25637, 25681, 25979,
  25891, 25905, 25906, 25917, 25936, 26289, 26201, 26203, 26219, 26227, 26241, 26245, 26548, 26565, 26553, 26554, 26422, 26508, 26514, 26515,
  26521, 26527, 26534, 26545, 26872, 26895, 26763, 26859, 26875, 26814, 26821, 27147, 27121, 27022, 27071, 27072, 27079, 27080, 27081, 27087,
  27094, 27100, 27101, 27263, 27265, 27340, 27317, 27323, 27334, 27336, 27598, 27476, 27554, 27942, 27864, 27857, 27958, 27956, 27977, 27952,
  27938, 27866, 27912, 28235, 28249, 28250, 28254, 28543, 28546, 28564, 28484, 28495, 28511, 28772, 28757, 28677, 28720, 28732, 28739, 28740,
  29036, 29054, 29025, 29011, 22192, 31980, 324, 24151, 25723, 32084, 32139, 32142, 30186, 27145, 32217, 32241, 32242, 31936, 32056, 32163,
  32002, 32172, 38836, 32942, 26591, 31627, 31638, 31648, 31599, 31606, 31612, 21053, 31580, 22181, 23877, 27601, 30652, 30654, 30661, 30678,
  30682, 30608, 30558, 30613, 30628, 1057, 23285, 27132, 30754, 30814, 30820, 30824, 30837, 30704, 30463, 24003, 28940, 30990, 31124, 26373,
  26978, 1048, 23274, 25959, 29542, 1087, 23674, 23715, 23702, 24158, 37309, 37310, 37311, 37316, 37320, 1071, 20269, 20589, 29064, 32694,
  32702, 32707, 32730, 1086, 20629, 24866, 26325, 28047, 37146, 21811, 21950, 21846, 37172, 23607, 26897, 29063, 32382, 32377, 32430, 32522,
  32588, 32589, 21610, 28841, 29106, 37380, 29470, 29517, 29496, 29435, 39274, 39267, 37409, 29474, 29473, 29527, 37431, 946, 21538, 22506,
  24475, 27628, 28001, 28794, 36162, 32868, 32884, 40583, 1091, 20634, 20904, 22557, 25779, 27407, 27692, 28355, 28614, 37672, 28707, 37673,
  28617, 37710, 37716, 37718, 37720, 37730, 37733, 12389, 20593, 22751, 24827, 25993, 33338, 33349, 33358, 23940, 26330, 28553, 28064, 27918,
  27930, 37615, 37622, 37625, 20592, 32315, 23103, 38421, 24753, 24832, 24707, 24797, 24794, 37510, 37517, 37523, 37530, 37541, 947, 21540,
  24159, 25431, 33031, 33051, 33065, 33075, 33079, 39272, 35120, 24846, 23714, 23428, 24476, 23846, 22100, 21956, 22150, 36790, 35591, 37003,
  36846, 36821, 28177, 28128, 28343, 32970, 25015, 38579, 23838, 21989, 37480, 32385, 28125, 37449, 32605, 29379, 23901, 37678, 33092, 20635,
  24532, 37770, 22959, 22935, 37805, 37827, 20279, 21552, 23304, 28576, 33447, 33440, 33523, 33558, 33572, 33578, 24508, 24417, 29357, 22140,
  22191, 32748, 24574, 36840, 25256, 28182, 23052, 33462, 33004, 37742, 23224, 23264, 39570, 37754, 39587, 37756, 33506, 37793, 33427, 37794,
  36804, 32421, 37795, 33435, 32425, 23379, 33242, 37123, 37357, 33244, 23899, 23919, 37126, 22231, 24557, 24568, 39317, 24192, 23651, 28203,
  25781, 28238, 38403, 37278, 37077, 32661, 37393, 33248, 32992, 29488, 29437, 23915, 37082, 22028, 33250, 28470, 29423, 23965, 37132, 22276,
  22014, 24619, 25652, 36897, 36918, 36945, 37494, 38412, 38411, 37658, 37495, 32627, 37496, 37369, 33312, 37564, 37242, 32675, 32403, 32677,
  29441, 24435, 24089, 22060, 20616, 24273, 33317, 36952, 28530, 28312, 33177, 37665, 37249, 37470, 37250, 29443, 24123, 24296, 36962, 29247,
  32376, 37376, 33330, 33028, 32952, 36161, 21624, 35689, 29866, 21323, 23180, 25589, 28162, 29556, 28648, 32286, 29598, 22633, 30992, 29823,
  28403, 28649, 23943, 26050, 26667, 29114, 32459, 32561, 32498, 32520, 32460, 37907, 37916, 37922, 37931, 12487, 21926, 26615, 28307, 33662]

def chars18 : List Nat := [
  33703, 33739, 33741, 32514, 32507, 32530, 33604, 32551, 33680, 37883, 33681, 33622, 37854, 33623, 32555, 33625, 37860, 32563, 33702, 35691,
  31029, 31308, 21325, 22345, 22903, 27271, 27805, 40000, 31402, 31815, 19983, 22029, 22594, 24268, 28084, 28370, 29124, 30213, 29918, 40505,
  39240, 39255, 39262, 39268, 39288, 39294, 20295, 20610, 26917, 34936, 40504, 30148, 34855, 40526, 30166, 30157, 34898, 39186, 40540, 40539,
  40547, 37207, 39224, 30224, 34871, 39230, 39198, 30914, 32288, 20074, 20709, 28446, 28685, 30994, 20674, 26984, 20910, 21979, 24539, 26056,
  27702, 28360, 36730, 26967, 38317, 38326, 38329, 38336, 38342, 23066, 27157, 28806, 34005, 34018, 34026, 34031, 12835, 24228, 27699, 28358,
  38007, 38014, 38033, 38095, 38139, 22754, 23307, 25998, 27636, 33818, 33819, 33870, 33878, 33894, 22801, 23112, 29967, 29316, 36558, 25125,
  36750, 36751, 38488, 38522, 34051, 34147, 34155, 34166, 20354, 25790, 28076, 29118, 27641, 27661, 38641, 38681, 21565, 21931, 27640, 34264,
  34271, 34278, 34280, 26115, 21014, 26095, 29865, 29951, 38195, 27092, 27524, 27522, 26675, 26503, 26533, 36165, 36173, 27655, 26378, 36181,
  33779, 38211, 27021, 36185, 32941, 37939, 33781, 33149, 27533, 26653, 26755, 35274, 35275, 38290, 38602, 34188, 34100, 34189, 27237, 33788,
  35279, 34232, 38260, 37946, 33979, 33794, 27296, 26767, 26549, 34114, 26096, 26252, 26331, 29310, 25822, 33127, 33984, 34198, 33986, 38303,
  37987, 26621, 33042, 38305, 36734, 27281, 26563, 26594, 38369, 34124, 29327, 36150, 20723, 34078, 34208, 33998, 26912, 38278, 38347, 34050,
  34177, 29741, 22907, 28167, 40002, 31129, 19991, 26383, 26733, 27751, 30916, 32290, 30474, 20459, 23776, 29830, 21687, 22297, 26986, 27448,
  30004, 22910, 23187, 27039, 28169, 30101, 29832, 22860, 26735, 31037, 21765, 27820, 20001, 26387, 24884, 38851, 24669, 24641, 38922, 22211,
  22523, 23073, 27163, 34465, 34543, 34554, 34566, 23948, 38726, 27459, 33217, 38768, 39121, 38689, 27447, 33190, 38724, 38778, 39752, 23311,
  34297, 34369, 34386, 26676, 29121, 30592, 30016, 30604, 30623, 30605, 30565, 38955, 22212, 23313, 23643, 23912, 27384, 34627, 34692, 34694,
  24239, 27208, 28627, 38151, 38150, 38164, 38162, 39145, 39146, 23644, 24492, 24842, 25747, 28021, 34806, 34807, 34818, 34833, 34841, 30737,
  32625, 38174, 32607, 35315, 30043, 38157, 30981, 30780, 35916, 38729, 28864, 30624, 30413, 38021, 39024, 38241, 38187, 38242, 31006, 28849,
  38817, 30764, 34337, 25155, 38247, 34338, 31059, 38259, 30761, 30798, 30829, 31035, 38091, 38029, 39028, 34734, 38249, 38248, 34780, 39054,
  34781, 38824, 38967, 34738, 34487, 30807, 30806, 31046, 38032, 38098, 39061, 34435, 38969, 38864, 34786, 38830, 34652, 30472, 38707, 30826,
  29048, 29080, 34655, 38051, 38104, 38110, 39115, 34791, 30700, 30695, 38214, 38838, 38944, 30921, 29213, 38758, 39124, 30905, 34357, 29152,
  29140, 38117, 39126, 31234, 38232, 38760, 39127, 34509, 39091, 38764, 34327, 34803, 38233, 38722, 34328, 34626, 31854, 23189, 24014, 26445,
  27041, 21284, 26111, 27758, 23190, 23468, 26168, 40007, 22302, 30185, 31136, 29955, 20969, 22867, 26116, 29612, 24327, 26453, 31137, 20682,
  24922, 30927, 31045, 31858, 20471, 21356, 22371, 31004, 29569, 30249, 20366, 20651, 28875, 30253, 30285, 31360, 30256, 31352, 30268, 30242,
  39393, 39405, 1072, 27606, 28817, 29085, 35078, 35093, 35106, 35107, 35110, 35119, 31404, 30319, 35195, 31405, 30091, 30386, 39356, 39322,
  39324, 32809, 34999, 35004, 35022, 35043, 32808, 32817, 35056, 35137, 35016, 32881, 39032, 35124, 35019, 39345, 35023, 21774, 24332, 24667]

def chars19 : List Nat := [
  28185, 31416, 31827, 21172, 26887, 27141, 29056, 31774, 31776, 31799, 8546, 23955, 34838, 34693, 34711, 34762, 39651, 39668, 39684, 39252,
  21942, 25456, 33219, 35343, 35345, 35349, 35354, 40681, 23698, 23954, 26683, 39071, 34414, 39486, 39488, 39489, 39491, 21577, 21940, 35158,
  35226, 20655, 25515, 27720, 28632, 33281, 33339, 33315, 33384, 33332, 33342, 33331, 23321, 25082, 25458, 26019, 35419, 35421, 35425, 35427,
  35440, 35452, 21250, 24252, 26962, 27429, 27724, 40837, 39931, 39927, 40838, 35307, 35622, 39967, 39971, 39972, 39973, 39977, 39990, 21948,
  22775, 23085, 25757, 26315, 27656, 35588, 35556, 35624, 35627, 35635, 20373, 20938, 23126, 26353, 28633, 37265, 37264, 37283, 39892, 26642,
  26922, 35491, 35535, 21655, 23712, 25147, 40195, 40194, 40239, 40243, 40247, 969, 22540, 24855, 25086, 26926, 28831, 20109, 40727, 35984,
  34876, 34474, 33359, 33370, 36331, 35925, 34779, 33320, 34794, 39599, 34741, 31586, 24703, 31611, 35163, 39073, 34485, 34622, 35392, 35359,
  34952, 40097, 36287, 36401, 36417, 21084, 21121, 21122, 35393, 39806, 34479, 39839, 36434, 20866, 35238, 39454, 35362, 31900, 35560, 35496,
  36323, 40199, 40167, 35900, 35239, 31645, 31656, 31531, 32688, 39905, 36318, 36303, 35398, 35365, 35903, 31544, 34545, 32174, 31901, 40112,
  39845, 36332, 36495, 20193, 21274, 20203, 31744, 35244, 39846, 39944, 39848, 39816, 35247, 39945, 35569, 40176, 39704, 36496, 20251, 38402,
  39624, 31692, 31717, 34526, 34659, 34513, 34520, 36244, 36241, 36273, 35911, 25284, 39819, 36372, 36349, 40210, 35915, 20211, 21347, 35250,
  39531, 35251, 39467, 35606, 35607, 40213, 39555, 39755, 39631, 39824, 40183, 31715, 34707, 34573, 39758, 35379, 35610, 40082, 40134, 40084,
  40135, 40085, 35513, 36396, 35286, 36399, 21037, 35313, 39826, 39637, 35316, 35580, 35926, 39475, 39443, 35190, 37199, 40090, 36410, 39590,
  40221, 40189, 34595, 32900, 21086, 35357, 40044, 21362, 26785, 24285, 9581, 29759, 24334, 26787, 31141, 24927, 23795, 29845, 25841, 31053,
  23796, 27842, 28191, 28469, 31144, 23164, 25842, 26128, 39711, 24514, 25902, 25865, 25753, 25786, 36997, 37033, 21586, 21721, 21795, 21712,
  21677, 21869, 36933, 36985, 21820, 30198, 31866, 31832, 30441, 20422, 22053, 26129, 26750, 28424, 30026, 20733, 22386, 22653, 22936, 22884,
  23414, 26405, 8553, 22834, 29135, 40415, 40386, 40414, 40424, 40431, 40440, 40447, 1080, 12506, 20322, 21954, 27660, 35798, 35790, 35801,
  35787, 20886, 36290, 36293, 36304, 21656, 22284, 28394, 40288, 40287, 40338, 40344, 9312, 20321, 23326, 20421, 20444, 36100, 20948, 26365,
  40484, 39673, 23093, 25763, 37177, 37054, 37118, 36432, 36435, 36448, 36451, 22287, 23134, 23365, 27436, 40656, 39688, 20888, 21958, 23931,
  24860, 26652, 28835, 22596, 22657, 33425, 33423, 40729, 36555, 36559, 36571, 35822, 21154, 35795, 35796, 35765, 21370, 35833, 35836, 21759,
  40620, 33480, 33504, 20520, 36016, 38461, 20606, 40391, 36050, 40392, 38460, 21264, 36374, 40393, 40532, 38503, 22436, 22479, 24047, 33460,
  36522, 40544, 40273, 20666, 40545, 40465, 33486, 40370, 36029, 20716, 22490, 22488, 22482, 22316, 36489, 33444, 33543, 36240, 36490, 36391,
  36342, 40559, 36348, 36065, 40864, 36034, 40564, 37025, 34819, 22516, 33594, 40378, 36202, 40648, 40379, 36404, 35891, 40316, 22319, 40477,
  40450, 40753, 40050, 29887, 24970, 27847, 29581, 23992, 28927, 30352, 31466, 29630, 26470, 27848, 40019, 23169, 27011, 28146, 29631, 20097,
  30893, 30308, 30143, 25574, 27013, 40053, 29768, 20737, 28476, 29586, 29973, 22621, 27018, 22288, 23719, 27734, 40822, 40793, 40833, 40852]

def chars20 : List Nat := [
  40856, 40866, 20890, 21959, 22547, 22783, 28604, 28836, 33720, 36667, 36670, 36673, 33934, 40756, 33770, 33809, 36619, 36587, 33994, 33784,
  40806, 33943, 33882, 40810, 36631, 33912, 34104, 34105, 36636, 36638, 33914, 36639, 32309, 20738, 21790, 22943, 23207, 28710, 40022, 31018,
  20429, 22062, 24633, 22589, 23968, 27226, 27736, 21219, 22548, 25632, 36800, 34231, 36799, 34181, 34142, 36705, 36815, 36853, 34169, 24318,
  36736, 25518, 25586, 25592, 25568, 36769, 36685, 23589, 25669, 25627, 25611, 36696, 25633, 25694, 25709, 25590, 40161, 31533, 21438, 26852,
  28258, 29344, 29280, 29249, 29250, 29180, 29372, 29148, 29194, 29197, 29205, 29351, 30907, 30904, 30947, 30903, 30944, 30946, 30852, 30902,
  30953, 30954, 30957, 30960, 30961, 30963, 30965, 30966, 30969, 30972, 30975, 30976, 30978, 30979, 30980, 30982, 30983, 30984, 30985, 30986,
  30987, 96, 94, 9564, 9562, 9607, 12567, 9605, 470, 9563, 474, 476, 593, 9559, 9561, 9604, 9606, 472, 714, 9560,
  9608, 9609, 9610, 9611, 9612, 9613, 9614, 9615, 9619, 9620, 9660, 9698, 9699, 9700, 9701, 9737, 8853, 12306, 12317, 12318,
  126, 38804, 40028, 40026, 40058, 40027, 40025, 40057, 38827, 39996, 40059, 40061, 40062, 40068, 40076, 40083, 40087, 40093, 40106, 40108,
  40127, 40129, 40130, 40136, 40146, 40154, 40155, 35684, 35716, 35685, 35681, 35682, 35721, 35723, 35724, 35729, 35730, 35732, 35733, 35737,
  35739, 35740, 35742, 35743, 35756, 35761, 35771, 35783, 35792, 35818, 35849, 60, 61, 62, 29729, 29727, 29773, 29728, 29724, 29726,
  29770, 29772, 29688, 29725, 29774, 29775, 29776, 29777, 29779, 29780, 29782, 29784, 29793, 29797, 29798, 29804, 29810, 29811, 29812, 29813,
  29817, 124, 933, 920, 968, 924, 918, 928, 934, 927, 925, 913, 936, 937, 923, 919, 935, 921, 926, 916,
  914, 915, 917, 929, 30314, 30360, 30311, 30277, 30312, 30365, 30367, 30368, 30369, 30370, 30371, 30373, 30375, 30376, 30378, 30379,
  30380, 30381, 30383, 30387, 30389, 30390, 30391, 30393, 30395, 30396, 30397, 30398, 30400, 31024, 31022, 31075, 31019, 31021, 31073, 30989,
  31078, 31081, 31082, 31083, 31084, 31086, 31088, 31089, 31090, 31091, 31092, 31093, 31094, 31097, 31099, 31101, 31102, 31106, 31107, 31110,
  31112, 31113, 31115, 31116, 31120, 31121, 95, 30160, 30215, 30159, 30150, 30156, 30210, 30088, 30222, 30223, 30225, 30226, 30228, 30230,
  30234, 30236, 30237, 30238, 30252, 30254, 30255, 30258, 30262, 30263, 30265, 30267, 30269, 30273, 29861, 29895, 29893, 29860, 29858, 29819,
  29857, 29896, 29897, 29900, 29901, 29902, 29904, 29905, 29907, 29909, 29910, 29913, 29917, 29921, 29925, 29927, 29928, 29929, 29930, 29931,
  29932, 29933, 29937, 45, 44, 59, 58, 33, 12296, 12291, 9651, 8765, 8214, 711, 8220, 12297, 8217, 8230, 12288, 12305,
  12299, 12300, 65374, 12303, 168, 12298, 8216, 183, 12289, 12290, 713, 8221, 63, 32281, 32282, 32280, 32310, 32312, 32279, 32314,
  32316, 32319, 32320, 32322, 32328, 32329, 32330, 32331, 32332, 32333, 32334, 32335, 32336, 32337, 32338, 32339, 32342, 32343, 32344, 32345,
  32347, 32348, 47, 31304, 31301, 31336, 31334, 31300, 31335, 31261, 31299, 31338, 31340, 31341, 31342, 31345, 31346, 31349, 31355, 31356,
  31357, 31358, 31362, 31367, 31369, 31371, 31372, 31374, 31375, 31376, 31380, 31385, 31386, 31387, 31390, 31393, 31432, 31475, 31433, 31474,
  31430, 31476, 31477, 31479, 31480, 31483, 31484, 31486, 31488, 31489, 31490, 31493, 31495, 31500, 31501, 31502, 31504, 31507, 31510, 31511]

def chars21 : List Nat := [
  31512, 31514, 31516, 31517, 31519, 31521, 31522, 31527, 31529, 39, 34, 29639, 29638, 29643, 29650, 29651, 29652, 29653, 29655, 29656,
  29658, 29660, 29663, 29665, 29666, 29668, 29670, 29672, 29675, 29676, 29679, 29683, 29684, 29686, 31879, 31877, 31843, 31878, 31880, 31882,
  31883, 31884, 31885, 31886, 31887, 31888, 31891, 31892, 31894, 31898, 31899, 31904, 31905, 31907, 31910, 31915, 31917, 31919, 31920, 31924,
  31926, 31927, 31928, 31930, 40, 41, 91, 93, 123, 125, 1046, 1050, 1045, 1059, 1053, 1040, 1061, 1062, 1049, 1065,
  1025, 1060, 1047, 1052, 1043, 1042, 1044, 1055, 31156, 31210, 31205, 31152, 31202, 31208, 31123, 31214, 31217, 31218, 31219, 31220,
  31221, 31222, 31223, 31225, 31226, 31228, 31231, 31233, 31236, 31241, 31242, 31244, 31247, 31248, 31249, 31250, 31251, 31253, 31254, 31256,
  31257, 31259, 9488, 9476, 65121, 9480, 65119, 9474, 9484, 9489, 9483, 9481, 9491, 9492, 9479, 65118, 65120, 9490, 9477, 9482,
  12321, 9472, 8208, 9485, 65122, 65123, 65124, 65125, 65126, 65128, 65129, 65130, 65131, 12295, 29982, 30040, 30038, 29984, 29975, 29981,
  30037, 30039, 29979, 30046, 30047, 30048, 30049, 30051, 30055, 30056, 30057, 30062, 30065, 30067, 30069, 30071, 30074, 30075, 30076, 30077,
  30078, 30080, 30081, 30082, 30084, 64, 12357, 9355, 8567, 8550, 9350, 8565, 9356, 8560, 9366, 9358, 9359, 9362, 8566, 9357,
  8568, 8563, 8561, 8562, 8564, 9352, 65288, 65335, 65292, 65286, 65301, 65295, 65293, 65281, 65311, 65291, 65307, 65287, 65289, 65294,
  65509, 65282, 65283, 65285, 12449, 12455, 12457, 92, 30461, 30458, 30507, 30459, 30453, 30501, 30506, 30404, 30510, 30512, 30513, 30514,
  30515, 30521, 30523, 30525, 30527, 30530, 30532, 30533, 30534, 30536, 30537, 30538, 30539, 30540, 30541, 30542, 30547, 30548, 30549, 30550,
  30551, 30552, 30553, 2, 3, 4, 5, 6, 7, 8, 11, 12, 14, 15, 16, 17, 18, 19, 20, 21,
  22, 23, 24, 25, 26, 27, 28, 29, 30, 31, 127, 20236, 20067, 20059, 20218, 20226, 20216, 20230, 20066, 20229,
  20227, 20205, 20265, 20244, 20224, 20053, 20100, 20217, 20243, 20220, 20228, 19970, 20207, 20212, 20055, 20231, 20112, 20118, 20119, 20121,
  20125, 20131, 20138, 20143, 20144, 20145, 20148, 20151, 20152, 20156, 20157, 20158, 20168, 20172, 20178, 20187, 20188, 20192, 20194, 20198,
  20199, 20441, 20437, 20619, 20488, 20554, 20568, 20575, 20438, 20567, 20564, 20546, 20586, 20577, 20578, 20562, 20582, 20434, 20436, 20487,
  20555, 20576, 20560, 20566, 20388, 20550, 20548, 20549, 20435, 20569, 20494, 20496, 20507, 20509, 20512, 20514, 20515, 20527, 20528, 20529,
  20530, 20531, 20535, 20536, 20537, 20541, 20543, 20544, 20704, 20788, 20942, 20879, 20792, 20796, 20810, 20703, 20795, 20793, 20781, 20827,
  20814, 20815, 20819, 20699, 20739, 20741, 20787, 20789, 20794, 20669, 20784, 20782, 20783, 20785, 20797, 20746, 20748, 20749, 20750, 20751,
  20752, 20753, 20755, 20757, 20758, 20759, 20761, 20763, 20764, 20766, 20768, 20770, 20771, 20772, 20773, 20774, 20775, 20776, 20777, 20779,
  21157, 21022, 21013, 21080, 21251, 21141, 21077, 21145, 21158, 21020, 21144, 21142, 21177, 21166, 21167, 21140, 21008, 21012, 21075, 21079,
  21134, 21159, 21143, 20952, 21131, 21011, 21146, 21081, 21082, 21087, 21088, 21090, 21091, 21092, 21094, 21096, 21099, 21100, 21101, 21102,
  21104, 21105, 21107, 21108, 21110, 21111, 21112, 21113, 21115, 21116, 21118, 21120, 21124, 21125, 21492, 21316, 21455, 21391, 21651, 21585]

def chars22 : List Nat := [
  21461, 21386, 21470, 21498, 21314, 21469, 21466, 21440, 21529, 21503, 21504, 21459, 21511, 21304, 21309, 21384, 21390, 21454, 21502, 21456,
  21468, 21265, 21445, 21444, 21308, 21392, 21393, 21394, 21395, 21398, 21399, 21403, 21404, 21406, 21409, 21412, 21415, 21418, 21419, 21420,
  21423, 21424, 21425, 21429, 21432, 21433, 21434, 21436, 21437, 21751, 21749, 21798, 22010, 21951, 21874, 21864, 21882, 21900, 21750, 21881,
  21875, 21902, 21904, 21909, 21744, 21748, 21791, 21797, 21865, 21901, 21871, 21876, 21666, 21858, 21856, 21745, 21885, 21800, 21801, 21803,
  21805, 21810, 21812, 21813, 21814, 21817, 21818, 21819, 21821, 21824, 21826, 21829, 21831, 21835, 21836, 21837, 21838, 21841, 21842, 21844,
  21847, 21848, 21849, 21850, 21851, 22183, 22072, 22069, 22170, 22113, 22222, 22174, 22111, 22168, 22071, 22177, 22195, 22186, 22187, 22173,
  22169, 22185, 22171, 22176, 22166, 22164, 22167, 22180, 22115, 22117, 22118, 22119, 22126, 22128, 22131, 22135, 22138, 22142, 22143, 22145,
  22146, 22147, 22148, 22152, 22153, 22154, 22156, 22483, 22340, 22337, 22465, 22400, 22582, 22398, 22476, 22486, 22339, 22474, 22458, 22503,
  22491, 22492, 22498, 22332, 22335, 22397, 22399, 22464, 22468, 22473, 22461, 22460, 22333, 22477, 22401, 22407, 22409, 22410, 22413, 22414,
  22416, 22417, 22420, 22422, 22423, 22424, 22425, 22428, 22437, 22440, 22442, 22444, 22447, 22448, 22454, 22455, 22732, 22630, 22627, 22668,
  22776, 22723, 22728, 22733, 22724, 22710, 22745, 22736, 22722, 22740, 22624, 22664, 22667, 22717, 22734, 22719, 22590, 22713, 22711, 22712,
  22714, 22625, 22729, 22669, 22671, 22673, 22676, 22677, 22678, 22679, 22683, 22685, 22688, 22689, 22690, 22691, 22692, 22693, 22694, 22695,
  22698, 22699, 22700, 22701, 22703, 22704, 22705, 22706, 22708, 23030, 22896, 23017, 22950, 23128, 22945, 23026, 23031, 22895, 23025, 23023,
  23007, 23053, 23034, 23036, 23021, 22891, 22946, 23015, 23024, 22845, 23010, 23008, 23009, 23012, 23027, 22956, 22957, 22960, 22961, 22963,
  22964, 22965, 22967, 22968, 22972, 22973, 22975, 22977, 22978, 22979, 22980, 22981, 22983, 22988, 22990, 22991, 22997, 22998, 23001, 23003,
  23286, 23178, 23176, 23271, 23212, 23324, 23277, 23209, 23287, 23177, 23278, 23259, 23297, 23289, 23290, 23276, 23173, 23175, 23211, 23269,
  23288, 23272, 23279, 23137, 23263, 23261, 23262, 23266, 23174, 23283, 23214, 23215, 23216, 23220, 23222, 23223, 23225, 23226, 23227, 23228,
  23231, 23237, 23239, 23240, 23245, 23246, 23248, 23251, 23255, 23430, 23568, 23503, 23711, 23658, 23577, 23501, 23584, 23593, 23434, 23583,
  23579, 23606, 23595, 23597, 23575, 23600, 23426, 23499, 23502, 23570, 23582, 23368, 23564, 23585, 23505, 23509, 23510, 23512, 23513, 23514,
  23515, 23516, 23520, 23523, 23530, 23537, 23538, 23540, 23543, 23549, 23552, 23880, 23766, 23865, 23926, 23871, 23806, 23863, 23875, 23881,
  23767, 23872, 23857, 23894, 23886, 23887, 23763, 23765, 23807, 23864, 23885, 23866, 23873, 23722, 23861, 23858, 23859, 23862, 23764, 23876,
  23812, 23813, 23817, 23818, 23819, 23820, 23823, 23825, 23826, 23827, 23829, 23832, 23833, 23836, 23837, 23840, 23841, 23843, 23845, 23848,
  23850, 23851, 23852, 23855, 24139, 24121, 24045, 24253, 24042, 24117, 24135, 24134, 24129, 24153, 24143, 24144, 24127, 24147, 23999, 24036,
  24044, 24142, 24122, 24131, 23969, 24114, 24116, 23998, 24136, 24048, 24053, 24054, 24058, 24060, 24068, 24071, 24073, 24074, 24075, 24077,
  24078, 24082, 24083, 24087, 24094, 24095, 24096, 24098, 24099, 24100, 24104, 24106, 24442, 24419, 24356, 24563, 24504, 24415, 24436, 24445]

def chars23 : List Nat := [
  24302, 24434, 24430, 24468, 24451, 24424, 24462, 24297, 24353, 24355, 24416, 24446, 24262, 24412, 24410, 24411, 24414, 24299, 24437, 24360,
  24363, 24364, 24366, 24368, 24370, 24371, 24372, 24376, 24379, 24381, 24382, 24383, 24385, 24386, 24387, 24388, 24389, 24390, 24391, 24393,
  24395, 24397, 24401, 24788, 24645, 24640, 24771, 24704, 24894, 24854, 24777, 24695, 24769, 24783, 24790, 24644, 24782, 24780, 24762, 24810,
  24795, 24776, 24634, 24638, 24702, 24770, 24791, 24772, 24781, 24584, 24767, 24766, 24768, 24637, 24784, 24705, 24706, 24710, 24711, 24712,
  24714, 24715, 24718, 24719, 24720, 24721, 24723, 24725, 24727, 24728, 24729, 24732, 24734, 24737, 24738, 24740, 24741, 24750, 24755, 24759,
  25048, 24946, 24943, 25030, 24981, 25146, 25085, 25037, 24978, 25028, 25043, 25049, 24945, 25040, 25038, 25021, 25059, 25051, 25052, 25036,
  25055, 24979, 25029, 25050, 25039, 25025, 25023, 25024, 25027, 24941, 25045, 24982, 24983, 24984, 24987, 24988, 24990, 24991, 24992, 24993,
  24994, 24997, 24998, 25002, 25006, 25007, 25008, 25009, 25011, 25012, 25013, 25016, 25017, 25018, 25019, 25224, 25222, 25385, 25281, 25461,
  25392, 25278, 25382, 25397, 25404, 25223, 25396, 25393, 25365, 25426, 25407, 25408, 25390, 25415, 25218, 25221, 25274, 25280, 25383, 25388,
  25395, 25167, 25369, 25367, 25368, 25372, 25398, 25283, 25297, 25301, 25310, 25313, 25322, 25328, 25330, 25337, 25338, 25339, 25344, 25347,
  25348, 25349, 25350, 25354, 25355, 25357, 25362, 25583, 25696, 25636, 25807, 25759, 25700, 25634, 25693, 25706, 25712, 25584, 25704, 25701,
  25687, 25714, 25699, 25718, 25579, 25631, 25635, 25695, 25713, 25697, 25702, 25537, 25691, 25689, 25690, 25580, 25639, 25640, 25641, 25643,
  25646, 25647, 25648, 25649, 25650, 25651, 25653, 25655, 25656, 25657, 25659, 25660, 25664, 25666, 25667, 25673, 25675, 25676, 25677, 25678,
  25679, 25680, 25683, 25685, 25974, 25855, 25853, 25956, 26077, 26026, 25961, 25887, 25952, 25967, 25966, 25962, 25978, 25960, 25982, 25886,
  25888, 25953, 25977, 25957, 25965, 25819, 25948, 25946, 25951, 25851, 25969, 25894, 25895, 25896, 25897, 25901, 25904, 25911, 25914, 25916,
  25920, 25921, 25922, 25923, 25924, 25926, 25927, 25930, 25931, 25933, 25934, 25938, 25939, 26275, 26148, 26146, 26260, 26200, 26358, 26266,
  26192, 26258, 26271, 26276, 26147, 26270, 26267, 26251, 26281, 26265, 26284, 26140, 26145, 26190, 26193, 26259, 26277, 26261, 26268, 26098,
  26255, 26253, 26254, 26204, 26208, 26210, 26211, 26213, 26217, 26218, 26220, 26225, 26226, 26229, 26233, 26235, 26236, 26237, 26239, 26240,
  26243, 26246, 26574, 26427, 26424, 26559, 26486, 26703, 26645, 26566, 26557, 26581, 26425, 26569, 26567, 26600, 26583, 26587, 26595, 26419,
  26423, 26478, 26484, 26558, 26582, 26560, 26372, 26555, 26556, 26571, 26488, 26489, 26491, 26493, 26496, 26499, 26501, 26502, 26504, 26509,
  26510, 26511, 26513, 26516, 26518, 26523, 26528, 26529, 26532, 26537, 26540, 26542, 26879, 26766, 26764, 26860, 26808, 26924, 26867, 26858,
  26880, 26765, 26871, 26868, 26853, 26883, 26884, 26888, 26761, 26804, 26807, 26882, 26861, 26870, 26854, 26857, 26762, 26809, 26810, 26811,
  26813, 26815, 26817, 26819, 26822, 26823, 26824, 26826, 26828, 26830, 26831, 26832, 26833, 26835, 26836, 26838, 26841, 26843, 26844, 26845,
  26846, 26849, 26850, 27134, 27026, 27024, 27120, 27069, 27217, 27175, 27125, 27066, 27118, 27129, 27136, 27025, 27128, 27126, 27112, 27139,
  27124, 27142, 27020, 27023, 27065, 27068, 27119, 27127, 26977, 27115, 27113, 27114, 27116, 27070, 27074, 27076, 27077, 27078, 27090, 27093]

def chars24 : List Nat := [
  27095, 27097, 27098, 27102, 27105, 27106, 27107, 27108, 27109, 27110, 27346, 27430, 27350, 27300, 27344, 27359, 27353, 27351, 27339, 27369,
  27361, 27362, 27349, 27262, 27299, 27301, 27345, 27360, 27347, 27352, 27228, 27342, 27341, 27343, 27261, 27355, 27303, 27304, 27306, 27309,
  27310, 27312, 27313, 27314, 27316, 27318, 27319, 27321, 27322, 27324, 27325, 27326, 27327, 27328, 27329, 27330, 27332, 27333, 27337, 27610,
  27479, 27587, 27528, 27725, 27592, 27520, 27582, 27612, 27480, 27596, 27593, 27577, 27623, 27614, 27615, 27591, 27619, 27478, 27519, 27525,
  27613, 27594, 27439, 27579, 27581, 27477, 27532, 27534, 27535, 27536, 27537, 27541, 27543, 27545, 27548, 27549, 27550, 27551, 27552, 27555,
  27557, 27558, 27559, 27560, 27561, 27563, 27564, 27566, 27568, 27569, 27574, 27967, 27799, 27797, 28093, 28032, 27949, 27968, 27951, 27933,
  27972, 27948, 27989, 27790, 27855, 27858, 27940, 27970, 27937, 27935, 27936, 27793, 27959, 27865, 27868, 27869, 27871, 27876, 27878, 27879,
  27881, 27884, 27885, 27890, 27892, 27897, 27903, 27904, 27906, 27907, 27909, 27910, 27913, 27914, 27917, 27919, 27920, 27923, 27924, 27925,
  27926, 27928, 28280, 28160, 28158, 28266, 28213, 28387, 28329, 28209, 28264, 28281, 28159, 28273, 28259, 28296, 28283, 28284, 28289, 28157,
  28208, 28211, 28265, 28268, 28109, 28262, 28260, 28261, 28277, 28214, 28215, 28217, 28219, 28221, 28223, 28224, 28225, 28226, 28229, 28230,
  28231, 28232, 28236, 28239, 28240, 28241, 28242, 28245, 28247, 28253, 28256, 28257, 28554, 28441, 28537, 28635, 28596, 28480, 28534, 28547,
  28555, 28440, 28568, 28560, 28561, 28542, 28433, 28535, 28559, 28539, 28545, 28400, 28531, 28529, 28533, 28434, 28549, 28483, 28485, 28488,
  28489, 28490, 28492, 28494, 28496, 28498, 28499, 28501, 28502, 28503, 28505, 28506, 28509, 28512, 28513, 28515, 28517, 28519, 28520, 28521,
  28522, 28523, 28714, 28881, 28763, 28768, 28773, 28679, 28767, 28764, 28752, 28788, 28775, 28776, 28762, 28782, 28758, 28774, 28646, 28754,
  28756, 28676, 28769, 28715, 28717, 28719, 28721, 28722, 28723, 28724, 28726, 28727, 28728, 28730, 28731, 28733, 28735, 28736, 28737, 28738,
  28741, 28742, 28743, 28744, 28745, 28746, 28747, 28749, 29047, 28939, 28935, 28980, 29131, 29093, 28978, 29041, 29049, 29040, 29037, 29019,
  29062, 29052, 29035, 28932, 28934, 28974, 28979, 29027, 29051, 29039, 29024, 29021, 29023, 28933, 29044, 28981, 28983, 28984, 28985, 28986,
  28987, 28989, 28990, 28991, 28992, 28993, 28994, 28995, 28996, 28998, 28999, 29000, 29003, 29005, 29007, 29008, 29009, 29012, 29013, 29015,
  29016, 12310, 1066, 9496, 9363, 65308, 20257, 20583, 21174, 21515, 21910, 22499, 22742, 23042, 23294, 23602, 23891, 24150, 24463, 25056,
  25416, 25719, 25983, 26285, 26596, 26889, 27143, 27366, 27620, 27990, 28290, 28565, 28785, 29058, 32014, 31981, 32015, 31978, 32017, 32018,
  32021, 32022, 32029, 32030, 32031, 32035, 32036, 32037, 32038, 32040, 32041, 32042, 32044, 32045, 32049, 32050, 32052, 32053, 12311, 1067,
  9497, 9364, 65309, 20259, 20584, 20824, 21175, 21524, 21911, 22193, 22501, 22743, 23050, 23295, 23603, 23892, 24804, 25057, 25418, 25984,
  26287, 26598, 26890, 27144, 27367, 27991, 28292, 28566, 28786, 32087, 32116, 32086, 32082, 32055, 32083, 32120, 32122, 32123, 32124, 32125,
  32126, 32127, 32128, 32130, 32131, 32132, 32133, 32134, 32135, 32136, 32138, 32140, 32141, 32144, 32146, 32148, 32149, 32150, 32151, 12304,
  1068, 9498, 9365, 65310, 20264, 20585, 20825, 21176, 21528, 22194, 22502, 23051, 23296, 23605, 23893, 24152, 24467, 24805, 25058, 25425]

def chars25 : List Nat := [
  25724, 25985, 26288, 26599, 26892, 27368, 27622, 27992, 28787, 29061, 32185, 32215, 32182, 32214, 32216, 32183, 32219, 32220, 32223, 32225,
  32226, 32228, 32229, 32230, 32231, 32234, 32235, 32237, 32238, 32240, 32243, 32245, 32246, 32247, 32248, 32088, 32188, 31985, 31938, 32089,
  32155, 31986, 31939, 32090, 31987, 31940, 32091, 32059, 31988, 31942, 32060, 32192, 32158, 31989, 31945, 32093, 32061, 32193, 32159, 31990,
  32062, 32194, 31991, 31950, 32095, 32063, 32195, 32161, 31993, 32096, 32064, 32196, 31994, 31952, 32065, 32197, 31996, 31953, 32198, 32164,
  31997, 31954, 32099, 32199, 31955, 32100, 31999, 31956, 32069, 32201, 32168, 31960, 32169, 32001, 31962, 32103, 32071, 32170, 31963, 32072,
  32204, 32003, 31965, 32105, 32073, 32205, 32074, 32206, 31969, 32107, 32207, 32175, 32006, 31970, 32108, 32208, 32007, 31971, 32109, 32077,
  31972, 32111, 31973, 32112, 32079, 32211, 32179, 31974, 32212, 32012, 32081, 32181, 32054, 32152, 32250, 12301, 1063, 9493, 9360, 20246,
  20579, 21168, 21506, 21906, 22188, 22494, 22738, 23598, 24145, 24454, 24798, 25053, 25409, 25716, 25980, 26886, 27140, 27363, 27616, 27980,
  28285, 28562, 28777, 29055, 31590, 31588, 31628, 31589, 31583, 31587, 31630, 31535, 31585, 31633, 31634, 31640, 31641, 31642, 31643, 31646,
  31647, 31651, 31652, 31653, 31662, 31663, 31664, 31666, 31667, 31669, 31670, 31671, 31673, 31674, 31675, 31676, 31677, 31678, 31679, 31682,
  31683, 31536, 31592, 31538, 31593, 31540, 31594, 31541, 31595, 31542, 31596, 31543, 31597, 31547, 31600, 31549, 31603, 31551, 31604, 31552,
  31553, 31608, 31554, 31610, 31555, 31556, 31613, 31615, 31560, 31617, 31562, 31618, 31619, 31566, 31620, 31571, 31622, 31573, 31623, 31575,
  31624, 31577, 31625, 31626, 31582, 931, 12308, 1056, 9486, 9353, 20232, 20571, 20798, 21148, 21887, 22480, 22730, 23028, 23284, 23587,
  24137, 24438, 24786, 25046, 25399, 25708, 25971, 26273, 26572, 26877, 27356, 28278, 28770, 29045, 30607, 30602, 30599, 30601, 30647, 30649,
  30600, 30656, 30657, 30658, 30659, 30660, 30662, 30665, 30666, 30667, 30668, 30672, 30673, 30674, 30675, 30676, 30677, 30680, 30681, 30685,
  30686, 30687, 30688, 30689, 30611, 30559, 30560, 30564, 30614, 30567, 30615, 30569, 30570, 30617, 30573, 30618, 30574, 30619, 30575, 30620,
  30576, 30621, 30577, 30578, 30625, 30579, 30580, 30581, 30630, 30582, 30632, 30583, 30635, 30584, 30637, 30638, 30587, 30639, 30588, 30641,
  30642, 30594, 30644, 30595, 30646, 30598, 30692, 38802, 932, 12309, 9487, 9354, 20573, 20802, 21156, 21479, 21893, 22182, 22481, 22731,
  23590, 23878, 24138, 24440, 24787, 25047, 25400, 25710, 26573, 26878, 27357, 27608, 28279, 28551, 29046, 30752, 30808, 30753, 30745, 30750,
  30804, 30809, 30694, 30747, 30811, 30812, 30816, 30817, 30818, 30819, 30821, 30822, 30823, 30825, 30832, 30834, 30835, 30836, 30838, 30840,
  30841, 30842, 30845, 30846, 30847, 30848, 30850, 30756, 30696, 30760, 30762, 30763, 30766, 30705, 30767, 30706, 30769, 30708, 30709, 30711,
  30773, 30713, 30774, 30714, 30781, 30783, 30716, 30785, 30723, 30786, 30724, 30725, 30788, 30726, 30790, 30727, 30792, 30728, 30793, 30730,
  30794, 30731, 30795, 30734, 30797, 30735, 30799, 30736, 30801, 30739, 30803, 30851, 9565, 40029, 35688, 29731, 31025, 30161, 29862, 31305,
  31436, 29596, 31845, 31159, 12443, 20068, 20443, 20705, 21023, 21318, 21752, 22341, 22631, 22897, 23179, 23438, 23770, 24304, 24947, 25227,
  25587, 25857, 26150, 26428, 26768, 27027, 27267, 27483, 27800, 28161, 28442, 715, 39997, 35655, 30089, 32252, 31263, 29555, 31812, 12322]

def chars26 : List Nat := [
  29941, 30407, 19972, 20395, 20953, 21669, 22023, 23139, 23369, 23726, 23970, 24263, 24585, 24905, 25168, 25538, 26099, 26717, 27229, 27440,
  27738, 28110, 28401, 28647, 40152, 922, 8212, 9478, 8569, 65290, 20222, 20561, 20790, 21138, 21458, 22469, 22720, 23867, 24126, 25389,
  25698, 26562, 26863, 27123, 27348, 28269, 28761, 29034, 29460, 29457, 29512, 29510, 29458, 29453, 29404, 29455, 29513, 29514, 29515, 29516,
  29519, 29523, 29524, 29525, 29526, 29528, 29529, 29530, 29531, 29532, 29533, 29534, 29535, 29537, 29540, 29541, 29543, 29545, 29546, 29547,
  29550, 29552, 12577, 65078, 9794, 9533, 9320, 20337, 20630, 20897, 21223, 21609, 22236, 22552, 22789, 23101, 23334, 23671, 23936, 24520,
  24869, 25107, 25477, 26040, 26659, 27190, 27403, 27680, 28048, 28840, 37263, 37258, 37307, 23688, 37304, 37262, 37252, 37256, 37305, 23693,
  37254, 37308, 37314, 37315, 37317, 37330, 37331, 37332, 37333, 37334, 37337, 37338, 37339, 37343, 37344, 37345, 37346, 37348, 945, 215,
  9501, 9368, 65313, 21532, 21920, 22197, 22505, 22747, 23055, 23299, 23897, 24156, 24474, 24818, 25061, 25428, 25727, 25988, 26603, 26899,
  27149, 27371, 27625, 28299, 28570, 28793, 32646, 32644, 32685, 32640, 32643, 32686, 32598, 32642, 32692, 32693, 32698, 32699, 32706, 32708,
  32710, 32712, 32713, 32715, 32717, 32719, 32720, 32721, 32723, 32726, 32727, 32729, 32732, 32733, 32734, 32738, 12576, 65077, 8756, 9532,
  9319, 65344, 20334, 20895, 21222, 21607, 21963, 22233, 22551, 22787, 23099, 23333, 23670, 23935, 24206, 24519, 25097, 25476, 25770, 26936,
  27188, 27678, 28345, 28607, 28839, 29104, 37110, 37148, 37106, 37147, 37058, 37107, 37149, 37152, 37160, 37161, 37162, 37163, 37166, 37171,
  37173, 37174, 37175, 37176, 37178, 37180, 37181, 37182, 37183, 37186, 609, 177, 1070, 9500, 9367, 65312, 20268, 20587, 21178, 21530,
  21918, 22504, 22746, 23054, 23298, 23895, 24154, 24470, 25427, 25726, 26290, 26602, 27148, 27370, 27624, 27997, 28298, 28569, 28791, 32414,
  32379, 32410, 32378, 32436, 32444, 32470, 32484, 32492, 32505, 32528, 32542, 32569, 32571, 32572, 32573, 32574, 32575, 32576, 32577, 32579,
  32582, 32583, 32585, 32586, 32587, 32590, 32591, 32594, 12578, 65081, 9792, 1088, 9534, 9321, 20631, 20899, 21224, 21967, 22554, 23102,
  23335, 23672, 24216, 24522, 24872, 25108, 25478, 25775, 26042, 26327, 26660, 26939, 27191, 27404, 28050, 28350, 29551, 37412, 24586, 37410,
  37381, 37377, 37379, 29489, 37350, 29459, 37378, 37413, 37415, 37416, 37417, 37418, 37419, 37421, 37422, 37423, 37424, 37425, 37426, 37427,
  37429, 37430, 37432, 37433, 37435, 37436, 37437, 37438, 37441, 37442, 37443, 247, 9502, 12386, 9369, 65314, 12482, 29997, 20270, 20590,
  20831, 21921, 22198, 22748, 23056, 23300, 24157, 24821, 25063, 25430, 25728, 25989, 26293, 26605, 26900, 27150, 27372, 28300, 28571, 29065,
  32799, 32797, 32853, 32798, 32787, 32795, 32740, 32857, 32859, 32860, 32861, 32863, 32864, 32865, 32866, 32867, 32869, 32870, 32871, 32872,
  32875, 32876, 32877, 32878, 32885, 32888, 32889, 32890, 32891, 32892, 12581, 65088, 8243, 9537, 12832, 20344, 21227, 21613, 21975, 22794,
  23106, 23677, 23941, 24225, 24531, 24876, 25117, 25489, 26047, 26334, 26663, 26944, 28850, 29111, 37674, 37705, 39739, 37703, 28725, 37671,
  37702, 37704, 37642, 37708, 37711, 37712, 37713, 37714, 37715, 37717, 37719, 37722, 37724, 37725, 37726, 37727, 37728, 37729, 37731, 37732,
  37734, 37735, 37736, 37737, 12549, 949, 8744, 9505, 9332, 65317, 12485, 20277, 21546, 21924, 22510, 23061, 23903, 24479, 25066, 25433]

def chars27 : List Nat := [
  25734, 26296, 26903, 27375, 27632, 28305, 28575, 29069, 33277, 33273, 33340, 33272, 33271, 33344, 33345, 33347, 33352, 33356, 33360, 33361,
  33363, 33364, 33365, 33367, 33371, 33373, 33374, 33380, 33383, 12580, 65087, 8242, 9536, 20343, 21226, 21612, 21973, 22246, 22556, 23337,
  23676, 24526, 24874, 25116, 25485, 26046, 26662, 26942, 27406, 28055, 28352, 28613, 28848, 29110, 37578, 37608, 37606, 37577, 37572, 37605,
  37609, 37611, 37612, 37614, 37617, 37618, 37619, 37623, 37626, 37627, 37629, 37630, 37631, 37632, 37633, 37634, 37637, 37638, 37639, 37640,
  948, 8743, 9504, 9371, 65316, 20275, 21184, 21541, 21923, 22201, 22508, 23060, 23302, 23623, 23902, 24160, 24824, 25065, 25432, 25992,
  26295, 26610, 26902, 27630, 28004, 28302, 28574, 29068, 33141, 33138, 33189, 33186, 33135, 33185, 33188, 33132, 33191, 33195, 33196, 33198,
  33199, 33200, 33202, 33204, 33205, 33206, 33207, 33208, 33209, 33212, 33214, 33220, 33221, 33224, 33227, 33232, 33234, 12579, 65082, 176,
  9535, 12419, 20902, 21225, 21611, 21968, 22245, 22555, 22792, 23336, 23675, 23939, 24219, 24523, 24873, 25113, 25483, 25777, 26043, 26328,
  26661, 26940, 27405, 27685, 28054, 28351, 28612, 28842, 29108, 37478, 37507, 37477, 37473, 37508, 37474, 37511, 37512, 37513, 37514, 37515,
  37519, 37525, 37527, 37529, 37531, 37533, 37534, 37535, 37536, 37537, 37539, 37540, 37542, 8758, 9503, 9370, 65315, 20273, 20591, 20832,
  21181, 21922, 22200, 22507, 22749, 23900, 24477, 24823, 25064, 25729, 25990, 26294, 26606, 26901, 27151, 27373, 27629, 28002, 28573, 28795,
  29067, 32969, 32967, 33035, 32968, 32953, 32965, 32955, 33036, 33045, 33047, 33049, 33052, 33053, 33055, 33056, 33057, 33058, 33060, 33061,
  33062, 33063, 33064, 33066, 33069, 33070, 33072, 33076, 33077, 33082, 33083, 33084, 33085, 39271, 39273, 23424, 29464, 29405, 37267, 37191,
  32647, 32601, 37114, 32351, 21996, 37383, 32801, 32743, 29497, 24516, 39275, 24558, 37643, 33279, 37579, 37545, 33142, 33089, 28347, 28375,
  37479, 32897, 25044, 27732, 24400, 29465, 29407, 37268, 37192, 32603, 37062, 32384, 32352, 37384, 37352, 32744, 37676, 33283, 33238, 37580,
  37546, 33143, 33090, 37448, 32971, 32898, 29466, 29410, 37269, 37201, 32649, 32604, 37116, 37064, 37353, 32804, 37677, 37645, 33239, 37581,
  37547, 33091, 37481, 32975, 29471, 29411, 37270, 37203, 32651, 37119, 37065, 32387, 32354, 37354, 32747, 37646, 23654, 33153, 37450, 32976,
  32904, 29472, 29412, 12582, 65085, 8451, 1092, 9538, 12833, 20345, 20905, 21228, 21614, 21976, 22248, 22559, 22795, 23107, 23339, 23942,
  24226, 24877, 25118, 25491, 25780, 26048, 26335, 26664, 26945, 27195, 27408, 27693, 28615, 28852, 29112, 37801, 37771, 37800, 37740, 37768,
  23033, 37807, 37808, 37809, 37810, 37811, 37812, 37813, 37814, 37815, 37816, 37817, 37818, 37819, 37820, 37821, 37822, 37823, 37824, 37825,
  37826, 37828, 37829, 37830, 37831, 37833, 37835, 37836, 950, 8721, 9506, 9333, 65318, 20836, 21186, 21925, 22203, 22512, 22752, 23062,
  23904, 24164, 24828, 25434, 25994, 26614, 26904, 27154, 27376, 27633, 28007, 28306, 28802, 29070, 33528, 33525, 33458, 33526, 33442, 33535,
  33546, 33549, 33552, 33554, 33555, 33560, 33561, 33565, 33566, 33567, 33568, 33569, 33570, 33571, 33573, 33574, 33577, 33582, 33584, 33591,
  33595, 37271, 37204, 32653, 32606, 23870, 37067, 32388, 32355, 21965, 37355, 32812, 39306, 37647, 33241, 37583, 37549, 33093, 37483, 37451,
  32977, 32906, 38390, 37773, 37741, 33387, 39541, 33466, 37776, 33389, 37777, 37744, 33468, 37778, 37745, 33471, 33397, 37779, 33472, 37780]

def chars28 : List Nat := [
  37747, 33474, 37781, 37748, 33400, 33477, 33403, 37783, 37750, 33478, 33404, 37784, 37751, 33481, 33408, 37785, 37752, 33488, 33409, 37786,
  37753, 33494, 37787, 33497, 33413, 23260, 37788, 37755, 33498, 33414, 23318, 37789, 33501, 33415, 37790, 37757, 33417, 37791, 33420, 37792,
  37759, 33424, 37760, 33513, 33428, 32415, 23397, 33516, 33429, 37763, 33430, 37764, 33518, 33434, 37798, 37765, 33520, 33522, 33438, 37837,
  33597, 29475, 29413, 37272, 37205, 32655, 37121, 32389, 32356, 37388, 37356, 32813, 32749, 37584, 37551, 33156, 33095, 37452, 32978, 32909,
  29476, 29414, 37273, 37206, 32656, 32611, 37069, 32390, 32814, 37681, 37649, 33291, 33243, 37552, 33157, 33097, 37485, 37453, 32979, 32910,
  29478, 29415, 37208, 32657, 37125, 32391, 32358, 37358, 32815, 32754, 37650, 37553, 33158, 33101, 37486, 37454, 32980, 32911, 29479, 29418,
  37277, 37209, 32658, 32613, 37076, 32392, 32359, 22046, 37391, 32816, 32756, 37651, 33295, 33245, 23641, 37587, 33159, 28452, 28409, 37487,
  37455, 32981, 32912, 29480, 29419, 37211, 32659, 32614, 37127, 32360, 37392, 37360, 32818, 32757, 33297, 33246, 33161, 33103, 37488, 37456,
  32984, 32913, 29485, 29429, 37279, 37212, 32615, 37128, 37078, 32394, 37361, 32820, 32758, 37685, 37653, 33299, 37589, 37556, 33163, 33106,
  37489, 32991, 32914, 29487, 29430, 37280, 37215, 32662, 32619, 37080, 32395, 37394, 37362, 32825, 32759, 37654, 33301, 37590, 33164, 33110,
  37490, 37458, 32916, 37281, 37216, 32663, 32620, 37130, 37081, 37395, 32826, 32760, 37687, 33249, 37591, 33165, 33111, 37491, 37459, 32994,
  32917, 29490, 37284, 37222, 32664, 32621, 32397, 32364, 37364, 32828, 24203, 37688, 33303, 37592, 33166, 37493, 37460, 32995, 32919, 29491,
  29438, 37285, 37223, 32665, 32623, 37086, 32398, 22017, 22051, 22282, 32830, 32762, 22786, 24243, 37657, 33304, 33252, 24362, 33396, 36909,
  32810, 23662, 37593, 33168, 33115, 32998, 32921, 38413, 27826, 29493, 29439, 37286, 37224, 32667, 37133, 32366, 37398, 32832, 32765, 33305,
  37594, 33170, 33116, 37462, 33006, 32926, 29440, 37287, 37227, 32668, 37134, 37088, 32367, 37399, 37367, 32833, 37691, 37659, 33306, 33254,
  37595, 37562, 33171, 33117, 33013, 32931, 29498, 29442, 37288, 37229, 32672, 37135, 37091, 32401, 32368, 37368, 32836, 32767, 37692, 37660,
  33309, 37596, 37563, 33172, 33118, 37497, 33015, 32934, 29499, 37289, 37235, 32674, 32630, 37136, 37092, 32402, 37401, 32837, 32770, 37693,
  37661, 33257, 37597, 33173, 33119, 37498, 37465, 33017, 32935, 29500, 29445, 37137, 37093, 32370, 37402, 37370, 32839, 32775, 37695, 37662,
  33316, 33259, 37598, 33174, 33121, 33019, 32936, 29501, 29446, 37243, 32632, 37097, 32404, 24113, 37403, 32840, 32776, 24274, 24283, 37696,
  37663, 33262, 37599, 37566, 33175, 33122, 37500, 33022, 32940, 20012, 29504, 37296, 37244, 32678, 32634, 37098, 32405, 32372, 37404, 37372,
  32777, 33318, 33263, 37600, 37567, 33123, 37501, 33023, 32944, 29505, 29448, 37297, 37248, 32635, 37140, 37100, 32373, 32778, 37698, 33319,
  33264, 37601, 37568, 33124, 37502, 37469, 33024, 32947, 29506, 29449, 37298, 32636, 37141, 37102, 32407, 32374, 37374, 32847, 32782, 37699,
  33321, 33265, 37602, 33182, 37503, 33025, 32949, 29507, 29451, 37299, 32682, 32637, 37104, 32408, 22093, 37407, 37375, 32848, 32783, 37700,
  37667, 33326, 33266, 37603, 37570, 33183, 33128, 37471, 33027, 32950, 29452, 32683, 32639, 37143, 37105, 32409, 32849, 32785, 37701, 37668,
  33269, 37571, 37505, 37472, 32739, 37188, 32595, 37739, 37641, 33235, 37543, 33087, 30909, 9566, 30320, 31026, 30163, 32285, 31306, 31437]

def chars29 : List Nat := [
  29597, 31846, 31160, 12444, 20069, 20706, 21025, 21753, 22076, 22342, 22632, 22898, 23440, 23771, 24004, 24305, 24647, 24948, 25228, 25858,
  26153, 26430, 26769, 27030, 27269, 27484, 28443, 28682, 28941, 30854, 729, 35656, 30991, 29821, 31265, 31399, 31125, 12323, 29944, 30409,
  20397, 20671, 20954, 21267, 21678, 22026, 22292, 22592, 22847, 23140, 23370, 23971, 24587, 25173, 25539, 25821, 26100, 26374, 26718, 26980,
  27230, 27441, 27746, 28894, 30911, 9567, 40031, 35690, 29735, 30167, 29867, 31307, 31438, 31847, 31164, 12541, 29988, 30466, 20071, 20450,
  20707, 21026, 21324, 21755, 22077, 22344, 22901, 23181, 23441, 23772, 24006, 24306, 24648, 25229, 25591, 25859, 26431, 26770, 27031, 27270,
  27804, 28444, 28942, 30856, 29691, 30280, 30092, 32254, 31266, 31126, 12324, 30411, 19974, 20400, 21268, 21680, 22027, 22293, 22593, 23141,
  23371, 23728, 23972, 24588, 24909, 25174, 25541, 26375, 26719, 26981, 27443, 27747, 28112, 28896, 12583, 65086, 65284, 9539, 12834, 20636,
  21229, 21615, 21977, 22249, 22562, 22796, 23108, 23340, 24227, 24533, 24878, 25120, 25492, 25782, 26947, 27196, 27409, 27697, 28058, 28616,
  28853, 37871, 37901, 37899, 32488, 37870, 37866, 37898, 37900, 32525, 32480, 37867, 37902, 37903, 37905, 37906, 37908, 37909, 37910, 37911,
  37913, 37914, 37915, 37917, 37918, 37919, 37920, 37921, 37923, 37924, 37925, 37926, 37927, 37928, 37929, 37930, 37932, 37933, 12551, 951,
  8719, 9507, 9334, 65319, 20281, 20595, 20838, 21188, 22513, 22753, 23063, 23306, 23634, 23905, 24165, 24482, 24829, 25435, 25737, 26905,
  27377, 28008, 28578, 28803, 29072, 33665, 33663, 33710, 33708, 33657, 33709, 33598, 33658, 33711, 33717, 33723, 33726, 33727, 33731, 33732,
  33734, 33742, 33744, 33745, 33746, 33749, 33751, 33753, 33754, 33755, 33758, 33762, 33763, 33764, 33766, 33767, 33768, 33772, 37872, 33666,
  33599, 32464, 32523, 32527, 37873, 37840, 33667, 33601, 37841, 33668, 33602, 37875, 37842, 33671, 37876, 33672, 33605, 37877, 33608, 37845,
  33675, 37879, 33676, 33611, 37880, 33677, 37881, 37849, 33679, 33613, 37882, 37850, 33614, 37851, 33619, 37884, 33621, 37853, 33685, 37886,
  32562, 33687, 37888, 37856, 37889, 33690, 33629, 33693, 33634, 37891, 37859, 33695, 33648, 37892, 33697, 33649, 37893, 33650, 37894, 37862,
  33699, 37863, 33700, 33652, 37864, 33701, 33653, 24027, 37897, 37865, 33654, 33773, 30912, 9568, 40032, 29737, 29868, 32287, 31439, 12542,
  30467, 20072, 20708, 21027, 22078, 22634, 23182, 23442, 23773, 24007, 24649, 24952, 25230, 25860, 26433, 27033, 27486, 28164, 28445, 28684,
  28943, 8213, 35658, 29692, 30281, 30993, 29826, 32255, 31268, 29558, 31127, 12325, 30412, 20401, 20673, 20958, 21272, 22851, 23372, 23730,
  23973, 24592, 24911, 25175, 25543, 26380, 26730, 26983, 27232, 27444, 27749, 28405, 28650, 28897, 65079, 9675, 1102, 12432, 12528, 20364,
  20650, 20929, 21239, 21637, 21998, 22264, 22573, 22813, 23694, 23952, 24240, 24550, 25503, 25798, 26068, 26347, 26678, 26956, 27209, 27418,
  28628, 28873, 39210, 39241, 40561, 39207, 39238, 39176, 39206, 39242, 39244, 39245, 39246, 39247, 39248, 39256, 39257, 39258, 39260, 39263,
  39264, 39265, 39266, 39270, 39283, 39291, 39298, 12560, 8978, 9516, 9343, 65328, 20867, 21201, 21573, 22527, 22765, 23078, 23315, 23645,
  23917, 24174, 24495, 24843, 25451, 25748, 26013, 26309, 26627, 27386, 27647, 28022, 28318, 28588, 28816, 29084, 34890, 34888, 34938, 34889,
  34883, 34887, 34934, 34852, 34939, 34940, 34944, 34947, 34951, 34953, 34954, 34956, 34958, 34959, 34960, 34961, 34963, 34964, 34965, 34967]

def chars30 : List Nat := [
  34968, 34969, 34970, 34971, 34973, 34974, 34975, 34976, 34977, 34981, 34982, 34983, 34984, 34985, 39177, 34891, 34853, 39212, 34854, 39179,
  34895, 34896, 34856, 39182, 34897, 39217, 34858, 39218, 39185, 34859, 39219, 34901, 34902, 34861, 39221, 39188, 34904, 34862, 39222, 39189,
  34906, 34863, 39223, 39190, 34864, 39191, 34908, 39225, 34867, 30211, 39226, 39193, 34910, 39227, 34911, 34869, 34912, 39229, 39196, 34918,
  34919, 34872, 39231, 34922, 34874, 39232, 39199, 34925, 30098, 30231, 30245, 39233, 39200, 34927, 34877, 34929, 34878, 39202, 34931, 34879,
  34932, 34881, 39204, 34933, 34882, 39305, 34986, 9569, 40033, 29739, 30323, 31030, 30170, 29869, 31440, 29601, 31849, 31170, 12294, 29991,
  30469, 20453, 21328, 21760, 22080, 22347, 22637, 22906, 23183, 23444, 23774, 24008, 24309, 24650, 24953, 25231, 25594, 25861, 26156, 26773,
  27034, 27272, 27487, 27806, 28166, 28945, 30859, 8229, 40001, 30282, 30094, 29828, 32256, 31269, 31403, 29559, 31816, 31128, 29947, 30419,
  19986, 20402, 20959, 21275, 21685, 22032, 22295, 22595, 22853, 23144, 23373, 23732, 23974, 24269, 24593, 24912, 25177, 25544, 25825, 26105,
  26382, 26732, 27445, 27750, 28115, 28406, 28898, 12585, 65090, 65504, 1095, 9541, 12836, 20352, 20638, 21231, 21620, 22252, 22565, 23111,
  23342, 23684, 23945, 24232, 24880, 25495, 26338, 26669, 26949, 27200, 27411, 28619, 29116, 27015, 38284, 38282, 38279, 38311, 26896, 38183,
  38280, 38315, 38318, 38319, 38320, 38323, 38324, 38325, 38327, 38328, 38330, 38332, 38333, 38334, 38335, 38337, 38338, 38339, 38340, 38341,
  38344, 38345, 12553, 953, 8745, 9509, 9336, 65321, 20286, 21190, 21559, 21929, 22207, 22515, 22755, 23636, 23907, 24484, 24831, 25070,
  25437, 25739, 25999, 26301, 26617, 26907, 27379, 27638, 28012, 28309, 33958, 34007, 34004, 33959, 33955, 33957, 34002, 33917, 33956, 34008,
  34009, 34010, 34011, 34012, 34014, 34017, 34020, 34023, 34024, 34027, 34029, 34033, 34034, 34035, 34036, 34037, 34038, 34039, 34040, 34041,
  34042, 34043, 34045, 34046, 34048, 34049, 12584, 65089, 164, 1094, 9540, 12520, 20349, 20637, 20909, 21230, 21616, 22563, 22798, 23109,
  23341, 23683, 23944, 24538, 24879, 25123, 25493, 25785, 26055, 26337, 26668, 26948, 27199, 28060, 28618, 28854, 29115, 37968, 37999, 37997,
  37967, 26473, 29882, 37963, 37965, 37998, 37964, 38001, 38003, 38004, 38006, 38008, 38009, 38010, 38011, 38015, 38016, 38017, 38018, 38019,
  38020, 38038, 38040, 38087, 38099, 38100, 38118, 12552, 952, 8746, 9508, 9335, 65320, 20283, 21189, 21928, 22206, 22514, 23065, 23635,
  24166, 24483, 24830, 25069, 25436, 26300, 26616, 26906, 27156, 27378, 28011, 28308, 28579, 28804, 29073, 33825, 33823, 33824, 33822, 33861,
  33864, 33774, 33866, 33867, 33868, 33869, 33871, 33872, 33874, 33875, 33876, 33877, 33880, 33885, 33887, 33888, 33890, 33892, 33893, 33895,
  33896, 33898, 33902, 33904, 33906, 33908, 33913, 33915, 65091, 65505, 1096, 9542, 12837, 20353, 21233, 21625, 21982, 22254, 22566, 23685,
  23946, 24233, 24881, 25127, 25789, 26057, 26339, 26670, 26950, 27201, 27412, 28620, 28862, 38424, 38407, 38487, 38483, 38419, 25908, 38375,
  38482, 38486, 29971, 25124, 38380, 38489, 38490, 38492, 38496, 38501, 38502, 38507, 38509, 38510, 38513, 38521, 38523, 38524, 38526, 38527,
  38528, 38529, 38530, 38531, 38532, 38535, 38537, 12554, 954, 8712, 9510, 9337, 65322, 20287, 20600, 20842, 21192, 21562, 22208, 22517,
  23309, 23638, 23908, 24168, 24485, 24834, 25071, 25440, 26002, 26303, 27158, 27380, 27639, 28807, 34088, 34133, 34131, 34089, 34087, 34130]

def chars31 : List Nat := [
  34132, 34086, 34136, 34138, 34139, 34140, 34141, 34143, 34144, 34145, 34146, 34149, 34150, 34151, 34156, 34158, 34159, 34160, 34161, 34163,
  34167, 34168, 34172, 34173, 34175, 34176, 65092, 8240, 1097, 9543, 12838, 20640, 20920, 21234, 21626, 21984, 22567, 22802, 23115, 23686,
  24234, 24882, 25128, 26058, 26340, 26671, 26951, 27202, 28362, 28621, 28863, 38630, 38583, 27669, 25663, 32927, 25963, 38629, 38631, 25909,
  38540, 27626, 38578, 38636, 38637, 38638, 38640, 38644, 38645, 38648, 38650, 38652, 38653, 38655, 38659, 38661, 38666, 38667, 38668, 38672,
  38674, 38676, 38679, 38682, 38683, 38685, 38687, 12555, 955, 8759, 9511, 9338, 65323, 20288, 20601, 20847, 21194, 22209, 22518, 22758,
  23069, 23310, 23639, 23909, 24169, 24486, 24835, 25072, 25444, 25741, 26004, 26304, 26909, 27381, 28016, 28311, 28582, 28808, 29077, 34219,
  34215, 34258, 34254, 34211, 34257, 34178, 34213, 34260, 34263, 34265, 34266, 34270, 34273, 34274, 34275, 34279, 34282, 34283, 34285, 34286,
  34287, 34288, 34289, 34290, 34291, 34293, 34294, 34295, 33961, 33918, 27057, 33826, 38427, 38349, 34052, 36166, 36167, 38586, 34179, 33078,
  32924, 33054, 38205, 33962, 33919, 33827, 38430, 34094, 34053, 38545, 34221, 34182, 33963, 33920, 37971, 38432, 34095, 38591, 38546, 34225,
  38288, 38216, 33964, 33921, 37972, 33834, 26698, 38435, 38352, 34096, 34055, 29294, 38594, 38547, 34226, 34185, 38219, 33965, 33923, 33835,
  38436, 38353, 34097, 34056, 38595, 34227, 32951, 33113, 33000, 33966, 37974, 33783, 38437, 38354, 34098, 34057, 38600, 38550, 34228, 34187,
  33925, 37975, 37942, 33837, 33786, 38438, 38355, 34099, 34058, 34229, 38240, 33969, 33926, 37943, 33838, 33787, 38439, 38356, 34059, 34230,
  38254, 33971, 33930, 27562, 33839, 38440, 34061, 26209, 38608, 38557, 33001, 32962, 38294, 33973, 33933, 37978, 37945, 33840, 33790, 38441,
  34102, 34062, 38558, 34192, 38295, 38261, 33974, 33935, 37979, 33842, 33791, 38443, 38359, 34110, 34063, 38559, 34235, 33936, 37980, 37947,
  33843, 33792, 38444, 34111, 38612, 34236, 34194, 38297, 38264, 33937, 37948, 33844, 38445, 34112, 34066, 38561, 34237, 34195, 38265, 33938,
  37982, 37949, 33797, 38447, 38362, 38562, 34238, 38266, 33939, 36727, 37951, 33846, 33799, 26585, 38448, 34069, 29311, 29323, 38616, 38563,
  34239, 34197, 38300, 38267, 33940, 37984, 37952, 33847, 38455, 34116, 34070, 38564, 34240, 38301, 38268, 37985, 37953, 33849, 33801, 38456,
  34117, 34072, 38618, 38565, 34242, 34199, 38302, 33987, 33942, 37986, 33850, 38457, 38366, 34118, 34073, 38566, 34243, 34200, 38270, 33989,
  33944, 37955, 33851, 33808, 38458, 38367, 34119, 34075, 34244, 36160, 38304, 33946, 37988, 33854, 33810, 38462, 38368, 34123, 34076, 38569,
  34245, 34202, 38273, 33947, 36737, 37957, 33855, 33811, 26876, 26911, 38465, 34077, 36147, 34246, 34205, 33194, 33038, 33010, 38274, 33992,
  33949, 33856, 33812, 38467, 34125, 38623, 34247, 34206, 33950, 33857, 33813, 38474, 34080, 38625, 38572, 34248, 34207, 38308, 38276, 33996,
  37992, 37960, 33858, 33814, 38478, 38372, 34127, 34082, 38573, 34250, 38277, 33952, 37993, 37961, 33859, 33815, 38479, 38373, 34128, 38574,
  34251, 34209, 38310, 33999, 33954, 37994, 37962, 33860, 33817, 38481, 38374, 34129, 34084, 38628, 34252, 34210, 26561, 38176, 33916, 38688,
  34296, 30915, 9570, 40034, 35694, 30324, 31031, 30172, 29870, 32289, 29603, 31850, 31172, 12445, 30470, 20075, 20455, 20712, 21030, 21762,
  22354, 22638, 23184, 23446, 23775, 24312, 24652, 24954, 25232, 25595, 25862, 26437, 26774, 27037, 27273, 27488, 27808, 28447, 28686, 28946]

def chars32 : List Nat := [
  8245, 35660, 30283, 30996, 30096, 29829, 32257, 31270, 31817, 20403, 20962, 21276, 21686, 22033, 22597, 22854, 23145, 23374, 23734, 24270,
  24595, 24914, 25178, 25546, 25827, 26985, 27235, 27446, 28116, 28899, 9571, 40035, 30325, 31032, 30173, 31311, 31442, 29604, 31851, 31173,
  12446, 29998, 20076, 20713, 21031, 21763, 22082, 22355, 22639, 22908, 23185, 24313, 24654, 24955, 25236, 25596, 26439, 26776, 27038, 27274,
  28449, 28948, 30864, 8453, 40003, 35661, 29695, 30286, 30997, 30099, 32258, 31271, 29561, 31818, 30425, 20404, 20676, 20963, 21278, 22034,
  22598, 22858, 23147, 23375, 23737, 23976, 24271, 24599, 24915, 25180, 25547, 25829, 26734, 27236, 27755, 28117, 28653, 28901, 30918, 9572,
  40036, 29745, 30326, 31033, 30175, 31312, 31443, 31175, 65097, 30476, 20077, 20460, 20714, 21337, 22083, 22356, 22640, 23463, 23778, 24011,
  24315, 24655, 24956, 25241, 25598, 25864, 26162, 26442, 26777, 27275, 27496, 28688, 30866, 8457, 40004, 35662, 32259, 31272, 31408, 31819,
  31132, 29950, 30426, 20000, 20965, 21279, 21689, 22035, 22298, 22599, 23378, 24272, 24600, 24916, 25181, 25548, 25831, 26109, 26386, 26988,
  27238, 27451, 27756, 28119, 28410, 30919, 40037, 35697, 30327, 32292, 31444, 31853, 31176, 65098, 30006, 30478, 20078, 20464, 20715, 21036,
  21339, 22084, 22357, 22911, 23188, 23464, 24012, 24316, 24657, 24957, 25603, 26443, 26778, 27040, 27276, 28690, 28955, 30868, 8598, 40005,
  35663, 29697, 30288, 30999, 30104, 32260, 31409, 31133, 12963, 29952, 20407, 20678, 20966, 21282, 21690, 22299, 22600, 22861, 23739, 23978,
  24276, 24602, 25182, 25553, 26110, 26736, 27239, 27452, 28411, 28910, 8470, 9545, 12840, 20922, 21236, 21631, 22569, 22807, 23347, 23689,
  23949, 24236, 24546, 25131, 25500, 26064, 26343, 26953, 27205, 27415, 27707, 28080, 28365, 28623, 28869, 29120, 27894, 38883, 24989, 24925,
  30744, 38850, 38880, 38882, 38814, 24679, 38849, 32896, 38884, 38885, 38888, 38895, 38896, 38897, 38898, 38903, 38904, 38905, 38906, 38909,
  38912, 38916, 38919, 38921, 38923, 38925, 12557, 957, 8869, 9513, 9340, 65325, 20290, 20604, 20858, 21933, 22760, 23642, 23911, 24837,
  25446, 25743, 26006, 26306, 26622, 26913, 27383, 27643, 28314, 28585, 28812, 29079, 34463, 34524, 34519, 34464, 34458, 34462, 34518, 34522,
  34413, 34459, 34529, 34530, 34531, 34533, 34534, 34535, 34536, 34538, 34539, 34540, 34550, 34551, 34556, 34557, 34559, 34561, 34564, 34565,
  34571, 34572, 34574, 34575, 34577, 34580, 167, 1098, 9544, 12839, 20357, 20641, 20921, 21630, 21986, 22258, 22568, 22803, 23116, 23345,
  23687, 24543, 24883, 26061, 26341, 26672, 26952, 27203, 27706, 28077, 28622, 28868, 29119, 38769, 38767, 38727, 26054, 38723, 38725, 38766,
  38770, 38773, 38775, 38776, 38777, 38779, 38781, 38782, 38783, 38784, 38785, 38787, 38788, 38790, 38792, 38793, 38794, 38796, 38798, 38800,
  38803, 38806, 38807, 38809, 38810, 38811, 38812, 12556, 956, 8730, 9512, 12396, 9339, 65324, 20289, 20602, 21196, 21567, 22759, 23070,
  23640, 23910, 24170, 24487, 24836, 25073, 25445, 25742, 26305, 26620, 26910, 27162, 27382, 28017, 28313, 28584, 28811, 29078, 34334, 34332,
  34368, 34366, 34333, 34329, 34365, 34370, 34371, 34373, 34374, 34375, 34376, 34377, 34378, 34379, 34380, 34390, 34391, 34392, 34393, 34397,
  34400, 34401, 34403, 34405, 34406, 34408, 34409, 65083, 9734, 9546, 12430, 12841, 12526, 20359, 20644, 20926, 22262, 22571, 22808, 23118,
  23349, 23690, 23950, 24238, 24547, 24885, 25133, 25501, 25795, 26065, 26344, 27206, 27708, 28081, 28624, 28870, 38959, 30645, 38987, 38958]

def chars33 : List Nat := [
  32616, 38954, 38956, 38927, 38992, 38993, 38997, 38998, 39001, 39002, 39004, 39005, 39007, 39008, 39009, 39010, 39011, 39014, 39017, 39020,
  39021, 12558, 958, 8741, 9514, 9341, 65326, 20292, 20862, 21198, 23074, 24172, 24491, 24839, 25075, 26008, 26307, 26625, 26914, 27164,
  27644, 28019, 28315, 28813, 29082, 34635, 34630, 34677, 34634, 34629, 34673, 34675, 34585, 34628, 34681, 34682, 34687, 34688, 34689, 34695,
  34697, 34698, 34700, 34702, 34705, 34706, 34708, 34709, 34710, 34712, 34713, 34714, 34715, 34717, 34720, 34721, 34723, 65084, 9733, 1101,
  9547, 20362, 20646, 20927, 21238, 21635, 21997, 22572, 22811, 23119, 23350, 23691, 23951, 24549, 24886, 25502, 25796, 26067, 26346, 26677,
  26955, 27417, 28083, 28368, 28871, 29122, 38158, 39098, 38135, 39140, 38132, 38159, 39099, 38121, 38163, 38141, 39095, 39137, 39139, 38137,
  39096, 39141, 39147, 39148, 39149, 39150, 39153, 39155, 39156, 39157, 39158, 39160, 39162, 39168, 39169, 39170, 39172, 12559, 959, 8736,
  9515, 9342, 65327, 20293, 20609, 20863, 21199, 21572, 21935, 22213, 22526, 22762, 23076, 23314, 23914, 24173, 25076, 25450, 26010, 26308,
  26626, 26915, 27385, 27646, 28587, 28815, 29083, 34773, 34768, 34808, 34772, 34767, 34805, 34725, 34766, 34810, 34812, 34813, 34815, 34816,
  34817, 34822, 34823, 34824, 34825, 34827, 34828, 34830, 34831, 34832, 34834, 34839, 34840, 34842, 34844, 34848, 38154, 38854, 38815, 34466,
  34415, 24845, 30777, 38690, 34335, 28780, 29224, 28855, 34637, 34587, 38022, 39101, 34774, 34726, 38239, 38245, 38244, 38188, 38185, 38088,
  38855, 34469, 34416, 38730, 38691, 34336, 34300, 34639, 34589, 39102, 34775, 38856, 38818, 34470, 34418, 38731, 38692, 34301, 38962, 34640,
  34591, 38027, 39103, 39026, 34776, 34729, 38857, 38820, 34475, 34419, 30471, 38732, 38693, 34302, 38963, 34641, 34592, 38101, 39104, 34730,
  38212, 38858, 38821, 34477, 34420, 40697, 38733, 38694, 34339, 34304, 38964, 34642, 34596, 38028, 39105, 34778, 38204, 38822, 34478, 34421,
  38734, 34340, 34305, 38965, 34644, 39106, 34736, 38823, 34482, 34422, 38735, 38696, 34341, 34306, 38934, 34599, 39107, 34737, 38861, 34483,
  34423, 38736, 38697, 34342, 34307, 34646, 34600, 39058, 38862, 38825, 34424, 30477, 38737, 38699, 34344, 29043, 34648, 34602, 38036, 39109,
  34783, 34740, 38207, 38206, 38863, 38826, 34488, 38740, 38700, 34346, 34650, 34603, 34742, 38828, 34489, 34436, 38741, 38702, 34347, 38970,
  38938, 34651, 34604, 39111, 39075, 34743, 34491, 34437, 38743, 38703, 34605, 39112, 34787, 38866, 34492, 34438, 38744, 38705, 34313, 34653,
  34607, 39113, 39081, 34788, 34745, 38833, 34493, 34439, 34350, 38941, 34654, 34608, 39114, 39082, 34790, 34747, 38213, 38868, 38835, 34494,
  30498, 30490, 38708, 34351, 29050, 38974, 38942, 34610, 38058, 38060, 34748, 38222, 38869, 38837, 34495, 34441, 38749, 34352, 38975, 38943,
  34657, 34611, 39116, 34792, 34750, 38870, 34497, 34446, 38751, 34658, 34613, 39117, 39085, 34793, 34751, 38871, 38839, 34498, 34447, 38755,
  38711, 34354, 38977, 34614, 34795, 34753, 38872, 38840, 34499, 34448, 38756, 38714, 34355, 38978, 38946, 34663, 39120, 34754, 38072, 38873,
  38841, 34501, 34449, 38715, 34356, 34320, 38947, 34617, 39088, 34797, 34755, 38874, 38842, 34504, 34450, 30531, 30885, 38759, 38716, 31130,
  38980, 34665, 34618, 31238, 31235, 38875, 38843, 34508, 34452, 38717, 34358, 34323, 34666, 34620, 39090, 34800, 34757, 34454, 38762, 38719,
  34359, 34324, 34667, 34621, 34759, 38877, 38845, 34514, 34455, 38763, 38720, 34361, 34325, 38983, 39132, 39092, 38878, 38846, 34515, 34456]

def chars34 : List Nat := [
  38721, 34362, 38984, 38952, 34669, 34625, 39133, 39093, 34761, 38879, 38847, 34517, 34457, 38765, 34363, 38985, 38953, 34671, 39136, 34804,
  34764, 38122, 38071, 38926, 34582, 38813, 34410, 39022, 34724, 39175, 30920, 9574, 40038, 35698, 29751, 30329, 31039, 30177, 29874, 32293,
  31315, 31445, 31178, 65099, 30009, 30479, 20079, 20466, 20719, 21039, 21341, 21768, 22358, 22642, 22912, 23465, 23783, 24317, 25245, 25604,
  25867, 26167, 26779, 27277, 27499, 27823, 28175, 28453, 28691, 30869, 8599, 40006, 35664, 29698, 30289, 31000, 30107, 29834, 31274, 31410,
  31134, 13198, 30429, 20003, 20408, 20679, 20967, 21692, 22037, 22301, 22601, 22864, 23150, 23390, 23740, 23979, 24277, 24606, 24919, 25183,
  25555, 25833, 26390, 26737, 26991, 27240, 28123, 28412, 28658, 28912, 30924, 9575, 35699, 29752, 31042, 30181, 32294, 31316, 31447, 31855,
  31180, 65100, 30012, 30480, 20082, 20468, 20720, 21041, 21349, 21770, 22086, 22360, 22643, 22917, 23785, 24015, 24325, 24660, 24959, 25246,
  25606, 26450, 26780, 27042, 27279, 27500, 27824, 28178, 28454, 28692, 28957, 8600, 29700, 30108, 29836, 32262, 31275, 31412, 29565, 31823,
  13199, 29954, 20409, 20680, 20968, 21285, 21694, 22038, 22866, 23151, 23392, 23742, 23980, 24279, 24607, 25184, 25556, 25834, 26113, 26392,
  26992, 27455, 27759, 28124, 28413, 28659, 28913, 30925, 9576, 40040, 29753, 29876, 32295, 31448, 31856, 31182, 65101, 30013, 30481, 20084,
  20469, 21042, 21352, 21771, 22087, 22361, 22644, 22921, 23469, 23787, 24016, 24326, 24662, 24960, 25251, 25607, 26169, 26452, 27043, 27282,
  27501, 27828, 28179, 28455, 28958, 30873, 8601, 35666, 30291, 31002, 30110, 29837, 31276, 29567, 31824, 13212, 30432, 20009, 20410, 20681,
  21287, 21699, 22304, 22603, 23152, 23393, 23744, 23981, 24280, 24610, 24921, 25185, 25557, 25835, 26393, 26739, 26994, 27242, 27456, 27761,
  28127, 28660, 28914, 30926, 9577, 40041, 35701, 30335, 31044, 30188, 29877, 31318, 31450, 31857, 31183, 65102, 30015, 30482, 20085, 20722,
  21044, 21354, 21772, 22088, 22370, 22923, 23192, 23788, 24017, 24663, 25254, 25608, 25870, 26782, 27044, 27283, 27502, 27829, 28456, 28694,
  28959, 35667, 29704, 30293, 31003, 30114, 29839, 32264, 31277, 31414, 29568, 31825, 13213, 29957, 20014, 20411, 21288, 21701, 22041, 22305,
  22606, 22873, 23399, 23746, 23982, 24611, 25186, 25559, 26117, 26394, 26741, 26995, 27457, 27763, 28130, 28661, 28915, 9578, 35702, 30336,
  30189, 29878, 32297, 31320, 31451, 31184, 30017, 20086, 20724, 21045, 21773, 22089, 22646, 22924, 23193, 23471, 23790, 24018, 24329, 24664,
  25255, 25609, 26171, 26455, 27045, 27503, 27830, 28184, 28960, 30878, 8735, 40010, 35668, 29707, 30295, 30118, 29841, 31415, 31826, 31138,
  13214, 29958, 20015, 20412, 20972, 21289, 21706, 22306, 22607, 22875, 23154, 23400, 23747, 23983, 24612, 24923, 25188, 25560, 25837, 26396,
  26744, 26996, 27458, 27765, 28131, 28416, 28662, 65080, 9679, 12433, 8544, 12529, 20930, 21639, 22000, 22267, 22574, 22814, 23121, 23353,
  23695, 23953, 24241, 24552, 25137, 26069, 26682, 26957, 27210, 27419, 27715, 28086, 28374, 29125, 39354, 39352, 39384, 30259, 39382, 39353,
  39349, 39308, 39390, 39394, 39397, 39398, 39400, 39401, 39402, 39404, 39406, 39408, 39412, 39413, 39414, 39416, 12561, 961, 8857, 9517,
  9344, 65329, 12497, 20611, 20868, 21203, 21575, 22215, 22529, 23079, 23316, 23647, 23918, 24175, 24496, 24844, 25452, 25751, 26628, 26918,
  27168, 27648, 28025, 28320, 28589, 35035, 35031, 35080, 35025, 35030, 35077, 34988, 35027, 35081, 35083, 35084, 35085, 35086, 35087, 35089]

def chars35 : List Nat := [
  35092, 35094, 35095, 35096, 35100, 35101, 35102, 35103, 35108, 35111, 35112, 35113, 35116, 35117, 35121, 35123, 35125, 31366, 39310, 34990,
  31411, 34916, 34991, 39357, 39323, 35038, 35040, 34994, 39359, 39325, 34995, 32790, 32788, 32800, 39326, 35046, 34996, 39327, 35047, 34997,
  39362, 39328, 35049, 34998, 39363, 39329, 35050, 35000, 32805, 32802, 35017, 39330, 35001, 39365, 39331, 35052, 35002, 39366, 39332, 35053,
  35003, 39367, 39334, 35054, 35005, 39368, 39335, 35055, 35006, 39369, 35007, 35068, 35061, 35008, 39371, 39339, 35062, 35011, 39372, 35063,
  35012, 35066, 35015, 39374, 35067, 39375, 39343, 35071, 39377, 35072, 35020, 35073, 35021, 39379, 35075, 39380, 35076, 35024, 39417, 35127,
  30929, 9579, 40043, 29757, 30337, 31047, 30190, 29879, 31321, 29617, 31861, 31187, 65104, 30018, 30484, 20087, 20473, 20726, 21052, 21357,
  22373, 22647, 22926, 23473, 24019, 24963, 25257, 25610, 25872, 26456, 27046, 27504, 27831, 28462, 30880, 8739, 35669, 29708, 30296, 31005,
  30119, 29842, 32266, 31279, 29570, 31139, 20017, 20413, 20974, 21291, 21707, 22308, 22608, 22876, 23749, 23984, 24284, 24620, 25189, 25561,
  25838, 26120, 26398, 26745, 27245, 27460, 27767, 28133, 28663, 28917, 39601, 12302, 1064, 9494, 9361, 65306, 20252, 20580, 21509, 21907,
  23038, 23292, 23599, 23889, 24146, 24461, 25054, 25412, 25717, 26593, 27364, 27618, 28563, 28778, 31731, 31728, 31769, 31767, 31730, 31724,
  31727, 31768, 31685, 31725, 31770, 31771, 31772, 31773, 31779, 31780, 31781, 31784, 31785, 31788, 31789, 31790, 31791, 31792, 31793, 31794,
  31795, 31796, 31797, 31798, 31801, 31802, 31803, 31804, 9671, 20370, 20654, 20933, 21244, 21641, 22272, 22817, 23123, 23355, 23699, 24244,
  24556, 24890, 25141, 25510, 25801, 26073, 26350, 26687, 26959, 27212, 27421, 27717, 28089, 28377, 28631, 28877, 29127, 39597, 34771, 39593,
  39595, 39643, 34731, 39645, 39648, 39650, 39652, 39653, 39655, 39656, 39657, 39660, 39665, 39666, 39667, 39669, 39670, 39672, 39674, 39676,
  39677, 39678, 39679, 39680, 39682, 39685, 12563, 964, 8750, 9519, 9346, 65331, 20298, 20614, 20871, 21580, 22217, 22532, 23082, 23921,
  24177, 24498, 25081, 25754, 26018, 26637, 26920, 27389, 27650, 28027, 28323, 28591, 28823, 29089, 35277, 35322, 35267, 35263, 35319, 35321,
  35323, 35325, 35326, 35327, 35329, 35331, 35332, 35334, 35337, 35339, 35340, 35341, 35344, 35346, 35348, 35350, 35351, 35355, 35356, 65073,
  9678, 8545, 12530, 20368, 20931, 21640, 22001, 22268, 23122, 23354, 24242, 24553, 24889, 25508, 25800, 26958, 27420, 27716, 28087, 28630,
  28876, 39480, 39478, 39445, 39447, 39477, 34381, 39418, 39446, 39481, 39482, 39483, 39484, 39487, 39490, 39492, 39494, 39495, 39497, 39500,
  39505, 39506, 39507, 39508, 39510, 39512, 12562, 963, 8747, 1073, 9518, 9345, 65330, 20297, 21204, 22216, 22769, 23080, 23317, 23650,
  23920, 24176, 24497, 24848, 25752, 26016, 26630, 26919, 27170, 27388, 27649, 28026, 28321, 28590, 28819, 35162, 35160, 35196, 35193, 35161,
  35157, 35159, 35194, 35128, 35197, 35198, 35200, 35202, 35205, 35207, 35208, 35209, 35210, 35212, 35214, 35216, 35217, 35218, 35220, 35221,
  35223, 35224, 35225, 35227, 35228, 35229, 35230, 35231, 35232, 65075, 9670, 8547, 12532, 20371, 21245, 21642, 22006, 22273, 22578, 23124,
  23356, 23701, 23956, 24250, 24559, 24891, 26695, 26960, 27213, 27422, 28090, 39724, 39722, 31943, 33325, 39723, 33313, 39721, 39767, 39769,
  39687, 31782, 39720, 33327, 39771, 39772, 39773, 39774, 39776, 39777, 39778, 39779, 39780, 39781, 39782, 39783, 39784, 39785, 39786, 39787]

def chars36 : List Nat := [
  39788, 39789, 39790, 39792, 39794, 39795, 39796, 39798, 39800, 39801, 39802, 12564, 39647, 965, 8801, 1075, 9520, 9347, 65332, 20299,
  20615, 21207, 21581, 22219, 22772, 23083, 23655, 23922, 24181, 24850, 26640, 26921, 27172, 27390, 27651, 28029, 28324, 28592, 29090, 35391,
  35420, 35389, 35385, 35358, 35423, 35428, 35429, 35431, 35432, 35434, 35435, 35436, 35439, 35444, 35445, 35446, 35447, 35448, 35450, 35451,
  35454, 35455, 9632, 8549, 12534, 20657, 21649, 22009, 22277, 22822, 23358, 24562, 24893, 25145, 25521, 26076, 26357, 26701, 27215, 28634,
  28880, 39930, 39962, 39929, 39959, 39961, 35311, 39928, 39963, 39964, 39965, 39966, 39968, 39969, 39970, 39974, 39975, 39976, 39978, 39982,
  39983, 39984, 39987, 39988, 39989, 39991, 39993, 39994, 12566, 967, 8776, 9522, 9349, 65334, 20306, 20878, 21210, 21583, 22537, 23657,
  23925, 24502, 25460, 26024, 26644, 26923, 27174, 27392, 28031, 28328, 28594, 28827, 29092, 35587, 35585, 35618, 35620, 35621, 35623, 35625,
  35626, 35630, 35631, 35632, 35633, 35637, 35638, 35639, 35640, 35642, 35643, 35644, 35645, 35646, 35647, 35648, 35649, 35650, 35651, 35652,
  40682, 65076, 9633, 8548, 12533, 20656, 21249, 21645, 22008, 22274, 22579, 22819, 23357, 23709, 23957, 24251, 24892, 25519, 26075, 26699,
  26961, 27214, 27423, 27723, 28091, 28380, 39834, 37234, 39866, 39864, 39831, 39833, 39863, 39865, 37246, 37301, 39804, 39832, 39867, 39869,
  39871, 39872, 39873, 39875, 39876, 39878, 39880, 39883, 39885, 39886, 39887, 39888, 39889, 39890, 39891, 39893, 39895, 39897, 39898, 12565,
  966, 8780, 1076, 9521, 9348, 65333, 20300, 20617, 20875, 21582, 21946, 22220, 22536, 22773, 23084, 23322, 23656, 23923, 24183, 24500,
  24851, 25083, 25459, 25756, 26022, 27173, 27652, 28030, 28326, 28826, 29091, 35522, 35520, 35487, 35457, 35523, 35524, 35525, 35526, 35529,
  35532, 35533, 35534, 35537, 35539, 35540, 35541, 35543, 35544, 35545, 35547, 35549, 35550, 35551, 35552, 35553, 35554, 9650, 8551, 20377,
  20660, 20944, 21252, 22011, 22583, 22828, 23129, 23361, 23960, 24255, 24564, 24896, 25525, 25809, 26706, 26965, 27218, 27432, 28094, 28391,
  28636, 28882, 29132, 40225, 40223, 40190, 40192, 40222, 40224, 40163, 40226, 40228, 40229, 40235, 40236, 40240, 40241, 40244, 40246, 40248,
  40249, 40253, 40254, 40256, 40257, 12568, 8733, 1078, 9524, 65336, 20310, 20620, 20880, 21212, 21594, 21952, 22223, 23087, 23325, 23927,
  24193, 25464, 25760, 26317, 26648, 27177, 27394, 27658, 28033, 28597, 35935, 35933, 35975, 35972, 35934, 20031, 35929, 35932, 35971, 35974,
  35896, 19980, 35931, 20039, 35982, 35983, 35985, 35986, 35989, 35991, 35993, 35994, 35995, 35996, 35999, 36003, 36004, 36005, 20022, 31732,
  31688, 35283, 35235, 31485, 39451, 35129, 39725, 39689, 33284, 39901, 35589, 35557, 39837, 39805, 35458, 37241, 40196, 40164, 35936, 35897,
  21136, 32669, 37518, 21139, 31733, 39602, 39516, 35284, 35236, 39452, 39726, 39690, 39934, 39838, 35459, 40197, 35898, 31734, 31690, 39603,
  35285, 35237, 39453, 35165, 39728, 39691, 35361, 39935, 39903, 35592, 40103, 39807, 35495, 35460, 40198, 40166, 35899, 31736, 31691, 39604,
  39518, 35287, 39692, 35395, 39904, 35593, 39840, 36500, 35941, 21286, 31737, 31693, 39605, 35288, 39455, 35169, 35133, 39731, 35396, 32119,
  39937, 37576, 39841, 39809, 35497, 35462, 40200, 35942, 35901, 21411, 39609, 35289, 39456, 39424, 35170, 35134, 39732, 39694, 35397, 35364,
  39938, 39906, 35595, 35562, 35902, 31739, 31695, 39611, 39521, 35291, 35241, 39457, 35171, 35135, 39733, 39696, 39939, 35596, 35563, 39843]

def chars37 : List Nat := [
  39811, 40202, 40170, 31741, 31696, 39613, 35293, 39426, 35172, 35136, 39734, 39697, 35399, 35366, 39940, 35597, 39844, 39812, 35467, 35945,
  35904, 31743, 31698, 39614, 39523, 35295, 39459, 39427, 35173, 35138, 39735, 39698, 35401, 35367, 25929, 32411, 39941, 39909, 37950, 39813,
  36463, 40204, 40172, 35906, 31700, 39615, 39460, 39428, 35175, 35139, 35368, 39942, 39910, 35599, 39814, 35502, 40205, 40173, 35949, 35907,
  31701, 39619, 39525, 35297, 35245, 39429, 35141, 39737, 39701, 35403, 35369, 39943, 35567, 39847, 39815, 35470, 40206, 40174, 35950, 35908,
  31746, 31702, 39526, 39462, 39430, 35142, 39738, 39702, 35404, 35601, 35568, 35471, 40207, 35951, 31747, 39622, 39527, 35300, 39463, 39741,
  39703, 35405, 35505, 35472, 40208, 35952, 31748, 31704, 39623, 35303, 35248, 31697, 31537, 39464, 39432, 35179, 35144, 39742, 35406, 35372,
  39946, 35603, 35570, 39818, 35473, 40209, 40177, 35953, 31707, 39529, 31706, 39465, 39433, 35180, 39743, 39705, 35407, 33353, 39947, 39915,
  35604, 35571, 35507, 35474, 40574, 36508, 40178, 35954, 20994, 31750, 31708, 35305, 39466, 39434, 35181, 39744, 35374, 39948, 39916, 35605,
  35572, 39820, 35508, 35476, 40211, 35917, 31752, 31710, 39626, 35306, 39435, 35182, 35147, 39707, 35409, 35375, 39917, 35573, 35509, 35957,
  31753, 31711, 39629, 39538, 35308, 35252, 39468, 35148, 39754, 35410, 35376, 39918, 35574, 39822, 35510, 35478, 40181, 35958, 31754, 31712,
  35309, 35253, 39469, 39437, 35184, 35149, 35411, 39951, 39855, 39823, 35511, 35959, 31757, 31714, 35310, 35150, 39756, 35512, 35963, 31758,
  39632, 39565, 35255, 31759, 39712, 31944, 39921, 35577, 39857, 36387, 40216, 40184, 35964, 35922, 21043, 31760, 39566, 39440, 35187, 35152,
  39760, 39713, 35414, 39954, 39858, 35482, 40217, 35965, 35923, 31761, 31719, 39572, 35314, 35257, 39473, 39441, 35188, 35153, 39762, 39955,
  35612, 39859, 39827, 40218, 40186, 35966, 31762, 31720, 39474, 39442, 35189, 35154, 39763, 39716, 35416, 39956, 39924, 39860, 39828, 35484,
  40187, 35967, 39577, 35317, 35259, 31766, 39765, 35383, 39957, 39925, 35581, 39829, 35517, 40220, 40188, 35968, 35927, 31764, 31723, 39639,
  35318, 35260, 39444, 39766, 39718, 35384, 35615, 39862, 39830, 35518, 35969, 35928, 37220, 40139, 35292, 31810, 35233, 39803, 35456, 35653,
  40258, 36013, 30930, 9580, 35704, 29758, 30339, 31050, 30191, 29880, 31322, 31453, 29620, 31862, 31188, 65105, 30019, 30485, 20475, 20727,
  21054, 21778, 22091, 22375, 22648, 22927, 23197, 23474, 23793, 24333, 24668, 24964, 25258, 26175, 26457, 27286, 27505, 28464, 28697, 28962,
  30882, 8786, 40012, 35670, 30297, 31007, 30120, 29843, 32267, 31280, 31417, 29571, 31828, 31140, 13252, 20019, 20414, 20685, 21292, 21718,
  22045, 22309, 22610, 22877, 23160, 23405, 23750, 23985, 24621, 24926, 25192, 25839, 26400, 26746, 26998, 27461, 27768, 28135, 28419, 28664,
  28918, 30931, 35705, 30341, 31051, 30194, 29881, 32300, 31323, 31457, 29621, 31863, 31190, 65106, 30020, 30486, 20089, 20476, 20728, 21060,
  21366, 21779, 22095, 22380, 22649, 22928, 23479, 23794, 24021, 24670, 24965, 25261, 25614, 25875, 26176, 26458, 27050, 27288, 27840, 28188,
  28700, 28963, 30884, 8806, 40013, 30298, 31008, 30121, 29844, 32268, 29573, 31829, 13262, 30438, 20021, 20416, 20686, 20978, 21293, 21720,
  22048, 22310, 22611, 22878, 23161, 23406, 23751, 23986, 24286, 24622, 25201, 25840, 26123, 26401, 26747, 27002, 27464, 28420, 28665, 28920,
  30934, 9582, 40046, 35706, 30345, 31052, 29883, 32301, 31324, 31458, 29622, 31864, 31191, 65108, 30022, 30487, 20090, 20477, 21061, 21369]

def chars38 : List Nat := [
  21781, 22382, 22650, 22929, 23199, 23482, 24336, 24671, 24966, 25262, 25617, 26459, 26788, 27052, 27289, 28190, 28468, 28964, 30886, 8807,
  40014, 29713, 30299, 31009, 30122, 31282, 31419, 29574, 31830, 13265, 20417, 20688, 20980, 21723, 22049, 22311, 22613, 22879, 23163, 23752,
  23987, 24624, 24928, 25202, 25564, 26125, 26402, 26748, 27003, 27466, 27771, 28421, 30935, 40047, 29762, 30346, 30197, 31325, 31460, 29624,
  31865, 31193, 65109, 30023, 20091, 20479, 20730, 21062, 21782, 22097, 22384, 22651, 22932, 23200, 23483, 24023, 24672, 24967, 25263, 25618,
  25877, 26180, 26461, 26789, 27290, 27508, 28965, 30888, 8895, 40015, 29714, 30301, 29846, 32270, 31284, 31420, 29576, 31831, 13266, 30440,
  20983, 21296, 21728, 22315, 22614, 23410, 23753, 23988, 24625, 24929, 25204, 25565, 26403, 26749, 27250, 27467, 27772, 28923, 12575, 8757,
  9318, 65343, 20333, 20628, 20894, 21221, 21605, 21962, 22232, 22550, 22785, 23098, 23669, 23934, 24205, 24865, 25095, 25768, 26038, 26324,
  26656, 26935, 27187, 27401, 27677, 28045, 28344, 28606, 28838, 29103, 25815, 25893, 36990, 25808, 25828, 36998, 36999, 37001, 37004, 37005,
  37006, 37008, 37010, 37012, 37014, 37016, 37018, 37020, 37022, 37023, 37024, 37028, 37029, 37031, 37035, 37037, 37042, 37047, 37052, 37053,
  37055, 36950, 36892, 21724, 21539, 36954, 36900, 36901, 36957, 36903, 36959, 36905, 36906, 36961, 36907, 36964, 36908, 36966, 36912, 36967,
  36970, 36915, 36971, 36916, 21802, 21684, 21863, 36972, 36919, 36975, 36921, 36976, 36922, 36977, 36925, 36927, 36979, 36928, 36982, 36934,
  36936, 21840, 37056, 30936, 35708, 29763, 30348, 32303, 31326, 31463, 31194, 65110, 30025, 20092, 20480, 20732, 21372, 21783, 22098, 22385,
  22652, 22933, 23201, 23484, 23797, 24024, 24340, 24673, 24968, 25264, 25621, 25878, 26181, 26466, 26793, 27055, 27291, 27843, 28194, 28967,
  9552, 40016, 29715, 30303, 31011, 30134, 29847, 32271, 31285, 31421, 29578, 13269, 20032, 20690, 20990, 22321, 22883, 23165, 23412, 23754,
  23989, 24289, 24626, 25205, 25567, 26404, 27006, 27251, 27469, 27775, 28141, 28668, 28924, 9585, 30349, 31055, 30199, 29886, 32304, 31327,
  31464, 29628, 31870, 31195, 65111, 30492, 20093, 20481, 21064, 21373, 21784, 23202, 23488, 24025, 24342, 24969, 25266, 25879, 26182, 26467,
  26794, 27056, 27846, 28704, 30890, 9553, 40017, 35675, 29716, 30304, 31013, 30135, 32272, 31286, 31422, 29580, 31833, 65072, 29966, 20033,
  20423, 20996, 21298, 21730, 22054, 22322, 22617, 23166, 23756, 24627, 24932, 25207, 25570, 26130, 27007, 27252, 27776, 28143, 28426, 28669,
  28926, 8594, 20380, 20662, 20947, 21257, 21660, 22015, 22585, 23132, 23716, 23963, 24567, 24898, 25154, 26081, 26363, 26711, 26968, 27220,
  27434, 27729, 28098, 28395, 40387, 40385, 40417, 40384, 40355, 40383, 40418, 40420, 40423, 40425, 40426, 40427, 40428, 40429, 40432, 40435,
  40436, 40437, 40439, 40445, 40446, 40448, 40449, 12570, 8814, 9313, 65338, 20623, 20883, 21598, 22543, 22780, 23091, 23327, 23661, 24507,
  24857, 25089, 25468, 25762, 26033, 26319, 26650, 26929, 28036, 28333, 28600, 28833, 36219, 36217, 36209, 36216, 36256, 36110, 35744, 36210,
  36258, 36260, 36262, 36263, 36265, 36266, 36267, 36268, 36269, 36270, 36271, 36272, 36274, 36278, 36279, 36281, 36283, 36285, 36288, 36289,
  36295, 36296, 36297, 36301, 36306, 36307, 8251, 8552, 20378, 20946, 21255, 22012, 22584, 22832, 23131, 23362, 23962, 24256, 24566, 24897,
  25148, 25811, 26079, 26362, 26710, 26966, 27219, 27433, 27727, 28097, 28637, 28883, 29133, 40319, 40286, 40318, 40320, 40259, 40322, 40324]

def chars39 : List Nat := [
  40325, 40326, 40327, 40330, 40331, 40335, 40337, 40339, 40340, 40341, 40342, 40345, 40346, 40348, 40350, 40352, 40353, 12569, 8800, 1079,
  9525, 65337, 20622, 20881, 21597, 21953, 22224, 22542, 22779, 23088, 23928, 24194, 24506, 24856, 25465, 25761, 26030, 26649, 26927, 27179,
  27395, 28035, 28599, 28832, 29095, 36046, 20372, 36045, 36043, 36073, 36075, 36014, 36078, 36079, 36080, 36081, 36082, 36083, 36085, 36086,
  36087, 36088, 36089, 36091, 36094, 36095, 36097, 36107, 8592, 8554, 65371, 20382, 21258, 21662, 22018, 22286, 22835, 23133, 23364, 23717,
  23964, 24569, 25156, 25531, 25813, 26083, 26712, 26969, 27221, 27435, 27730, 28099, 28642, 28885, 40500, 40487, 40451, 40577, 40579, 40580,
  40581, 40582, 40585, 40586, 40588, 40589, 40590, 40591, 40592, 40593, 40596, 40597, 40598, 40600, 40601, 40602, 40603, 40604, 40606, 40608,
  40609, 40610, 40611, 40612, 40615, 40616, 12571, 8815, 1081, 9527, 9314, 65339, 20326, 20624, 20884, 21216, 21599, 21955, 22226, 22544,
  23328, 23664, 23930, 24197, 24510, 25090, 25469, 26034, 26320, 26651, 26930, 27181, 27397, 27662, 28038, 28334, 28602, 29098, 36414, 36411,
  37072, 36366, 36359, 36363, 36412, 36309, 36360, 36415, 36419, 36421, 36422, 36428, 36429, 36430, 36431, 36436, 36437, 36438, 36439, 36440,
  36442, 36443, 36444, 36445, 36446, 36449, 36450, 36455, 36456, 36459, 8593, 8555, 65372, 20383, 20664, 20949, 21259, 21663, 22587, 22837,
  23718, 23966, 24259, 24570, 25157, 25533, 25814, 26084, 26369, 26713, 26971, 27222, 27731, 28104, 28397, 28643, 28886, 29137, 40709, 40707,
  40662, 40659, 40706, 40708, 40619, 40710, 40711, 40712, 40713, 40714, 40716, 40719, 40721, 40722, 40724, 40725, 40726, 40728, 40730, 40731,
  40732, 40733, 40735, 40737, 40739, 40741, 40742, 40743, 40746, 40747, 40750, 12572, 8804, 1082, 9528, 9315, 65340, 20328, 21600, 22227,
  22546, 23095, 24200, 24511, 25091, 25470, 26035, 26321, 26931, 27182, 27398, 27666, 28336, 28603, 29099, 36511, 36509, 22539, 36543, 22553,
  22682, 22541, 22525, 36505, 36547, 36548, 36550, 36553, 36560, 36563, 36564, 36565, 36567, 36568, 36570, 36574, 36577, 36579, 40356, 36220,
  21353, 38429, 38434, 40260, 36047, 27718, 39320, 40507, 36369, 36312, 22379, 36512, 36469, 22629, 33456, 33482, 20865, 40357, 36221, 36112,
  40293, 40261, 40508, 40453, 36370, 36313, 40666, 40621, 36513, 36471, 40390, 36222, 36113, 35847, 40262, 36049, 40454, 36371, 36316, 40622,
  36472, 40359, 36223, 38516, 40295, 36018, 36373, 22439, 40673, 40623, 36515, 40360, 36224, 36115, 40296, 40264, 21241, 40528, 40456, 22390,
  20981, 24308, 40675, 40624, 36516, 36474, 40361, 36226, 36116, 40297, 40265, 36052, 40530, 40457, 36375, 36322, 40676, 36517, 36475, 40362,
  36227, 40266, 36053, 36021, 40531, 36376, 40678, 36518, 36477, 40395, 40363, 36230, 40267, 36054, 36326, 40627, 36519, 36478, 40396, 40364,
  36231, 36119, 36055, 20128, 40534, 40460, 36327, 22450, 40683, 36520, 40397, 40365, 36232, 36120, 40301, 36056, 40537, 40461, 36379, 36329,
  40684, 40630, 36521, 36482, 40398, 40366, 36233, 40270, 36057, 36025, 40541, 40462, 36380, 36333, 40685, 40631, 36483, 40399, 36236, 40303,
  40271, 36026, 40543, 36384, 36334, 40686, 40633, 36525, 36484, 40400, 36237, 40272, 36059, 40464, 36385, 36336, 40688, 40634, 40369, 36238,
  36124, 36388, 36337, 40689, 40636, 36528, 36239, 40274, 36061, 35026, 20710, 40546, 40466, 36389, 36338, 22716, 40690, 40639, 36529, 40371,
  40275, 40549, 40467, 36390, 36340, 40691, 40640, 40404, 36242, 36178, 40308, 40276, 36063, 40468, 40641, 36491, 40405, 40373, 36243, 36183]

def chars40 : List Nat := [
  40277, 40469, 36392, 40693, 40642, 36492, 40406, 40310, 40278, 40562, 40470, 40694, 36534, 36246, 36197, 40311, 40471, 36397, 36351, 40695,
  40645, 36535, 36494, 40408, 40376, 36247, 36200, 35883, 40312, 40280, 27709, 20913, 40472, 36400, 36352, 22511, 40696, 40646, 36536, 36497,
  33587, 40409, 40377, 36248, 36201, 40313, 40281, 40473, 36402, 40698, 40647, 36537, 36498, 40410, 40314, 40282, 36069, 36037, 40567, 36403,
  40701, 36539, 36499, 40411, 36250, 36204, 40315, 40568, 36355, 40650, 36540, 40412, 40380, 36251, 36206, 40284, 36071, 40476, 36406, 36356,
  40704, 40651, 36502, 40413, 40381, 36252, 36207, 40317, 36072, 40570, 36407, 36358, 40705, 40652, 36542, 36308, 40354, 40618, 36465, 36580,
  9586, 35710, 30351, 31056, 30200, 31328, 29629, 31871, 31196, 65113, 30029, 30493, 20095, 20482, 20734, 21065, 21374, 21785, 22101, 22388,
  22655, 22938, 23203, 23489, 23799, 24026, 24345, 24678, 25267, 25881, 26183, 26468, 26795, 27058, 27293, 28199, 28473, 28705, 28969, 30891,
  9554, 29717, 30138, 32273, 31288, 31834, 31147, 65506, 29968, 30443, 20424, 20692, 20997, 21299, 21731, 22056, 22324, 22886, 23168, 23757,
  24628, 24933, 25208, 25572, 25845, 26134, 26752, 27253, 27471, 28144, 28427, 30940, 9587, 40051, 35711, 29766, 31057, 29888, 32306, 31329,
  31872, 31197, 65114, 30032, 20483, 20735, 21376, 21786, 22102, 22658, 22939, 23204, 23491, 23800, 24028, 24346, 24686, 25268, 25624, 26184,
  26796, 27059, 28200, 28474, 28970, 30892, 9555, 35677, 29718, 31015, 30139, 29850, 31290, 31425, 31835, 31148, 65508, 29970, 30444, 20036,
  20425, 21001, 21300, 21732, 22325, 22619, 23758, 24292, 24630, 24934, 25210, 25573, 26135, 26409, 26754, 27254, 28428, 28671, 28928, 30941,
  9601, 40052, 29767, 30354, 31058, 30203, 29889, 32307, 31467, 31873, 31198, 65115, 30497, 20484, 21377, 21788, 22106, 22392, 22660, 22940,
  23205, 23496, 23801, 24031, 24348, 24689, 24973, 25270, 25625, 25883, 26471, 26798, 27061, 27295, 27514, 27851, 28202, 28475, 28708, 28971,
  9556, 29719, 31016, 29851, 32275, 31294, 31426, 29584, 31149, 29972, 30445, 20038, 20427, 20695, 21003, 21301, 21739, 22058, 22326, 22620,
  22888, 23170, 23417, 23759, 24293, 24631, 25211, 26136, 26756, 27255, 27473, 27786, 28148, 28429, 28672, 28929, 30942, 9602, 35713, 30356,
  31060, 30205, 29890, 31331, 29633, 31874, 31200, 65116, 30034, 30499, 20485, 21071, 21379, 21789, 22107, 22393, 22662, 23206, 23497, 23802,
  24032, 24349, 24690, 25271, 25626, 26186, 26475, 26801, 27062, 27297, 27517, 27853, 28709, 28972, 30894, 9557, 35679, 29720, 31017, 30144,
  29853, 32276, 31427, 31837, 8481, 30448, 20042, 20428, 20696, 21004, 21302, 21740, 22059, 22327, 22889, 23171, 23419, 23760, 23995, 24294,
  24632, 24938, 25213, 25575, 25848, 26138, 26416, 26759, 27256, 27787, 28430, 28673, 28930, 8595, 65373, 20665, 21260, 21664, 22020, 22588,
  22838, 23135, 23366, 23967, 24260, 24572, 24901, 25158, 25535, 25817, 26090, 26370, 26714, 26972, 27223, 27437, 28398, 28887, 40789, 40791,
  40821, 40754, 40790, 40825, 40826, 40827, 40828, 40829, 40830, 40834, 40846, 40847, 40850, 40851, 40854, 40855, 40861, 40862, 40865, 63788,
  63865, 63975, 12573, 39695, 8805, 1083, 12413, 9316, 65341, 20330, 21601, 23096, 23667, 23932, 24201, 24512, 24861, 25092, 25471, 25766,
  26036, 26322, 26933, 27184, 27399, 28042, 28339, 29101, 36613, 33712, 36643, 36608, 36610, 36640, 36642, 33646, 36581, 36609, 36645, 36646,
  36647, 36651, 36652, 36653, 36654, 36658, 36659, 36660, 36661, 36662, 36665, 36669, 36672, 36675, 33765, 33718, 40795, 40755, 40796, 40797]

def chars41 : List Nat := [
  40757, 36616, 36584, 40758, 36585, 40799, 40760, 36618, 33798, 40762, 36620, 36588, 40802, 40803, 36622, 36590, 40804, 40769, 36623, 40805,
  40770, 36624, 36592, 40771, 36625, 36593, 40807, 40773, 36626, 36594, 40808, 40774, 36595, 40775, 36596, 34060, 40776, 40811, 40777, 36630,
  40812, 36599, 36632, 40814, 40780, 36633, 36601, 40815, 40781, 36634, 36602, 33881, 34032, 33927, 33928, 40816, 40782, 40817, 40783, 34079,
  40820, 36607, 33929, 63985, 30943, 9603, 29769, 30357, 30206, 31332, 31470, 29635, 31875, 31201, 65117, 30500, 20099, 21074, 21383, 22109,
  22394, 22663, 23498, 23804, 24350, 24692, 25272, 25629, 26189, 26476, 26802, 27518, 27854, 28206, 28477, 28973, 30895, 9558, 35680, 29721,
  30310, 30145, 32277, 31428, 31838, 12849, 29974, 30451, 20049, 20697, 21007, 21743, 22328, 22623, 23420, 23761, 24295, 24939, 25217, 25576,
  26139, 26418, 26760, 27258, 27475, 27789, 28674, 28931, 40772, 12307, 65507, 20386, 20668, 20951, 21665, 22021, 22289, 22843, 23367, 23720,
  24261, 24583, 25162, 25536, 26091, 26715, 26975, 27438, 28106, 28890, 29139, 12574, 8734, 9317, 65342, 20331, 20627, 20893, 21603, 21960,
  22230, 22784, 23097, 23331, 23668, 23933, 24204, 24513, 24862, 25093, 25767, 26037, 26323, 26934, 27186, 27400, 27676, 28043, 28341, 28605,
  28837, 29102, 36709, 36707, 36806, 36708, 30626, 36706, 36803, 36809, 36810, 36811, 36812, 36818, 36823, 36826, 36832, 36833, 36835, 36839,
  36844, 36847, 36849, 36850, 36854, 36858, 36859, 36860, 36862, 36863, 36871, 36872, 36876, 36878, 36883, 36885, 64013, 36714, 25486, 25482,
  36679, 64015, 36748, 64017, 36754, 25164, 36765, 64020, 36768, 36683, 64024, 36684, 36770, 36772, 23586, 25566, 25550, 64033, 36773, 36688,
  64036, 36775, 36689, 64039, 36778, 36690, 36780, 36691, 36692, 25612, 25378, 36693, 36695, 36787, 25457, 36697, 36789, 36698, 25732, 36791,
  36792, 36701, 25517, 25750, 36888, 30988, 29818, 31122, 30276, 32349, 31394, 29687, 31931, 31260, 20201, 20780, 21126, 21853, 22161, 22457,
  22709, 23006, 23555, 23856, 24108, 24404, 24761, 25020, 25364, 25686, 25940, 26250, 26546, 27111, 27338, 27576, 27932, 28524, 28750, 29018,
  29292, 29176, 29271, 29210, 29393, 29278, 29208, 29268, 29285, 29293, 29262, 29297, 29299, 29276, 29303, 29173, 29207, 29209, 29269, 29296,
  29283, 29142, 29265, 29263, 29264, 29267, 29174, 29288, 29212, 29214, 29215, 29216, 29217, 29218, 29219, 29220, 29221, 29223, 29225, 29227,
  29230, 29231, 29235, 29236, 29244, 29248, 29251, 29253, 29257, 29258, 29304, 29307, 29308, 29300, 29290, 29291, 29143, 29274, 29354, 29353,
  29314, 29355, 29317, 29362, 29361, 29358, 29318, 29363, 29321, 29181, 29144, 29182, 29365, 29324, 29183, 29382, 29336, 29184, 29147, 29371,
  29328, 29370, 29326, 29185, 29186, 29149, 29187, 29150, 29188, 29375, 29374, 29334, 29381, 29335, 29189, 29153, 29191, 29154, 29192, 29193,
  29383, 29337, 29160, 29302, 29386, 29339, 29385, 29338, 29387, 29340, 29391, 29388, 29341, 29395, 29196, 29198, 29163, 29164, 29352, 29167,
  29397, 29396, 29398, 29348, 29400, 29349, 29168, 29203, 29169, 29204, 29171, 29402, 29350, 29206, 29259]

/-- The characters of the lines 1 to 20935 of word.dic. -/
def chars : List Nat :=
  (chars0 ++ (chars1 ++ (chars2 ++ (chars3 ++ (chars4 ++ (chars5 ++ (chars6 ++ (chars7 ++ (chars8 ++ (chars9 ++
  (chars10 ++ (chars11 ++ (chars12 ++ (chars13 ++ (chars14 ++ (chars15 ++ (chars16 ++ (chars17 ++ (chars18 ++ (chars19 ++
  (chars20 ++ (chars21 ++ (chars22 ++ (chars23 ++ (chars24 ++ (chars25 ++ (chars26 ++ (chars27 ++ (chars28 ++ (chars29 ++
  (chars30 ++ (chars31 ++ (chars32 ++ (chars33 ++ (chars34 ++ (chars35 ++ (chars36 ++ (chars37 ++ (chars38 ++ (chars39 ++
  (chars40 ++ chars41)))))))))))))))))))))))))))))))))))))))))

/-- jieba/lac_small/word.dic: ids and words. -/
def words : List (Nat × Str) :=
  chars.zipIdx.map (fun e => (e.2, [e.1])) ++
    [(20935, lit ['O', 'O', 'V', '_', 'N', 'U', 'M']),
     (20936, lit ['O', 'O', 'V', '_', 'A', 'L', 'P', 'H', 'A']),
     (20937, lit ['O', 'O', 'V', '_', 'A', 'L', 'N', 'U', 'M']),
     (20938, lit ['O', 'O', 'V', '_', 'H', 'A', 'N', 'Z']),
     (20940, lit ['O', 'O', 'V'])]

/-- The second column of tag.dic. -/
def tagNames : List Str := [
  lit ['a', '-', 'B'], lit ['a', '-', 'I'], lit ['a', 'd', '-', 'B'], lit ['a', 'd', '-', 'I'], lit ['a', 'n', '-', 'B'], lit ['a', 'n', '-', 'I'],
  lit ['c', '-', 'B'], lit ['c', '-', 'I'], lit ['d', '-', 'B'], lit ['d', '-', 'I'], lit ['f', '-', 'B'], lit ['f', '-', 'I'],
  lit ['m', '-', 'B'], lit ['m', '-', 'I'], lit ['n', '-', 'B'], lit ['n', '-', 'I'], lit ['n', 'r', '-', 'B'], lit ['n', 'r', '-', 'I'],
  lit ['n', 's', '-', 'B'], lit ['n', 's', '-', 'I'], lit ['n', 't', '-', 'B'], lit ['n', 't', '-', 'I'], lit ['n', 'w', '-', 'B'], lit ['n', 'w', '-', 'I'],
  lit ['n', 'z', '-', 'B'], lit ['n', 'z', '-', 'I'], lit ['p', '-', 'B'], lit ['p', '-', 'I'], lit ['q', '-', 'B'], lit ['q', '-', 'I'],
  lit ['r', '-', 'B'], lit ['r', '-', 'I'], lit ['s', '-', 'B'], lit ['s', '-', 'I'], lit ['t', '-', 'B'], lit ['t', '-', 'I'],
  lit ['u', '-', 'B'], lit ['u', '-', 'I'], lit ['v', '-', 'B'], lit ['v', '-', 'I'], lit ['v', 'd', '-', 'B'], lit ['v', 'd', '-', 'I'],
  lit ['v', 'n', '-', 'B'], lit ['v', 'n', '-', 'I'], lit ['w', '-', 'B'], lit ['w', '-', 'I'], lit ['x', 'c', '-', 'B'], lit ['x', 'c', '-', 'I'],
  lit ['P', 'E', 'R', '-', 'B'], lit ['P', 'E', 'R', '-', 'I'], lit ['L', 'O', 'C', '-', 'B'], lit ['L', 'O', 'C', '-', 'I'], lit ['O', 'R', 'G', '-', 'B'], lit ['O', 'R', 'G', '-', 'I'],
  lit ['T', 'I', 'M', 'E', '-', 'B'], lit ['T', 'I', 'M', 'E', '-', 'I'], lit ['O']]

/-- jieba/lac_small/tag.dic: ids and labels. -/
def tags : List (Nat × Str) := tagNames.zipIdx.map (fun e => (e.2, e.1))

/-- The lines of a file with these ids and words. -/
def linesOf (es : List (Nat × Str)) : List Str := es.map (fun e => strNat e.1 ++ 0x09 :: e.2 ++ [0x0A])

end Jieba.LacData
