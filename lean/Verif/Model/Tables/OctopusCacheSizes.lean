/-! # The table of /repo/octopus/octopus_lookup.go:3-413

Written by tools/tables.py. 2045 entries. -/

set_option autoImplicit false

namespace Verif.Tables

/-- /repo/octopus/octopus_lookup.go:3-413, entries 0 to 204 -/
def octopusCacheSizes0 : List Nat := [
  16776896, 16842688, 16907456, 16973248, 17039296, 17104576, 17170112, 17233984, 17301056, 17366848,
  17432512, 17495488, 17563072, 17628992, 17693888, 17759936, 17824192, 17891264, 17955904, 18021184,
  18087488, 18152896, 18218176, 18283072, 18349504, 18414784, 18481088, 18546496, 18611392, 18677312,
  18742336, 18807232, 18874304, 18938176, 19004224, 19070144, 19135936, 19201472, 19267264, 19331392,
  19398208, 19464128, 19529408, 19594816, 19660096, 19726016, 19791424, 19855552, 19922752, 19988032,
  20053952, 20118976, 20184896, 20249792, 20315968, 20381248, 20446912, 20510912, 20576576, 20643776,
  20709184, 20773952, 20840384, 20904512, 20971072, 21035968, 21102272, 21167936, 21233216, 21298624,
  21364544, 21429952, 21494848, 21560768, 21626816, 21691328, 21757376, 21822656, 21887552, 21954368,
  22019392, 22084288, 22151104, 22216384, 22281536, 22347712, 22412224, 22478656, 22543936, 22608832,
  22675264, 22740544, 22806464, 22870976, 22935872, 23002816, 23068096, 23134016, 23198272, 23263808,
  23330752, 23396288, 23459008, 23527232, 23592512, 23658304, 23723968, 23788736, 23854912, 23920448,
  23986112, 24051136, 24116672, 24182464, 24247616, 24313792, 24378688, 24444736, 24509504, 24575168,
  24640832, 24707008, 24772544, 24837184, 24903488, 24967616, 25034432, 25099328, 25165376, 25230272,
  25296704, 25361216, 25427392, 25492672, 25558592, 25624384, 25690048, 25754816, 25820096, 25885504,
  25951936, 26017088, 26081728, 26148032, 26214208, 26279872, 26345024, 26410688, 26476096, 26541376,
  26606656, 26672704, 26737472, 26804032, 26869184, 26934976, 26998208, 27066304, 27131584, 27196096,
  27262528, 27328064, 27393728, 27458752, 27523904, 27590336, 27655744, 27721664, 27786688, 27852224,
  27917888, 27983552, 28049344, 28114496, 28179904, 28244416, 28311488, 28376896, 28441792, 28507712,
  28573504, 28638784, 28700864, 28766272, 28835648, 28901056, 28966208, 29032384, 29096768, 29162176,
  29228608, 29293504, 29359808, 29424832, 29490752, 29556416, 29621824, 29687488, 29752256, 29818688,
  29882816, 29949632, 30014912, 30079552, 30144448]

/-- /repo/octopus/octopus_lookup.go:3-413, entries 205 to 409 -/
def octopusCacheSizes1 : List Nat := [
  30212032, 30273728, 30342464, 30406976, 30473152, 30538432, 30605248, 30670784, 30733376, 30799936,
  30865984, 30932672, 30997696, 31063744, 31129408, 31195072, 31260224, 31325248, 31391552, 31456192,
  31521472, 31588288, 31653824, 31719232, 31784384, 31850432, 31915456, 31981504, 32046656, 32110784,
  32177984, 32243392, 32308544, 32372672, 32439872, 32505664, 32570816, 32636608, 32700352, 32767808,
  32833088, 32897344, 32962624, 33029824, 33093824, 33160768, 33226304, 33289664, 33356864, 33423296,
  33488704, 33554368, 33619136, 33683648, 33750592, 33816512, 33881152, 33947456, 34008512, 34076992,
  34141376, 34208704, 34275008, 34340032, 34406336, 34471744, 34537024, 34600256, 34668352, 34734016,
  34797632, 34864576, 34930624, 34993984, 35061184, 35127104, 35192512, 35258176, 35323712, 35386688,
  35454784, 35518528, 35585728, 35650624, 35716288, 35782336, 35847872, 35910976, 35978816, 36044608,
  36108608, 36175808, 36238912, 36305728, 36371392, 36436672, 36502976, 36568384, 36633536, 36699968,
  36764096, 36830656, 36896576, 36961984, 37026368, 37093312, 37158848, 37223488, 37289536, 37355072,
  37420736, 37486528, 37551424, 37617472, 37681856, 37747904, 37813696, 37879232, 37944128, 38009792,
  38075584, 38141888, 38207168, 38272448, 38337472, 38403392, 38469056, 38535104, 38600512, 38660672,
  38731328, 38795584, 38862016, 38925632, 38993728, 39059264, 39124672, 39190336, 39255488, 39320768,
  39386432, 39452096, 39518144, 39581632, 39648704, 39713984, 39778624, 39844928, 39909824, 39974848,
  40042432, 40107968, 40173376, 40238144, 40303808, 40367168, 40434496, 40500032, 40565312, 40631744,
  40697152, 40762816, 40828096, 40894144, 40959808, 41023552, 41088832, 41155904, 41221696, 41286208,
  41350592, 41418304, 41484224, 41547712, 41614528, 41680448, 41746112, 41811904, 41876672, 41942848,
  42008128, 42073792, 42138688, 42204992, 42268736, 42334912, 42401728, 42467008, 42532544, 42597824,
  42662848, 42729152, 42794944, 42860096, 42925504, 42991552, 43057088, 43122368, 43188032, 43253696,
  43319104, 43382848, 43450048, 43515712, 43581376]

/-- /repo/octopus/octopus_lookup.go:3-413, entries 410 to 614 -/
def octopusCacheSizes2 : List Nat := [
  43646912, 43712192, 43777088, 43843264, 43907648, 43974464, 44039104, 44105024, 44170432, 44236736,
  44302144, 44366272, 44433344, 44498752, 44564288, 44628928, 44694976, 44760512, 44825152, 44890816,
  44956864, 45022144, 45088448, 45154112, 45219008, 45284672, 45350464, 45414976, 45481024, 45547456,
  45612608, 45675584, 45744064, 45808192, 45874496, 45940288, 46006208, 46069696, 46136768, 46202176,
  46267712, 46333888, 46399424, 46464832, 46529344, 46595008, 46660672, 46727104, 46791488, 46858048,
  46923328, 46989248, 47053504, 47119936, 47185856, 47251264, 47316928, 47382464, 47447872, 47513152,
  47579072, 47643584, 47710144, 47774912, 47839936, 47906624, 47971648, 48036544, 48103232, 48168896,
  48234176, 48297664, 48365248, 48430528, 48496192, 48562112, 48627136, 48692032, 48757312, 48824128,
  48889664, 48953792, 49020736, 49085888, 49149248, 49217216, 49283008, 49347136, 49413824, 49479488,
  49545152, 49610432, 49675712, 49741376, 49807168, 49871936, 49938368, 50003776, 50069056, 50134976,
  50200256, 50264128, 50331584, 50396608, 50462656, 50527552, 50593472, 50658752, 50724032, 50789824,
  50853952, 50921408, 50986048, 51052096, 51117632, 51183424, 51248576, 51314624, 51379904, 51444416,
  51510848, 51576128, 51641792, 51707584, 51773248, 51838912, 51903296, 51968704, 52035136, 52100416,
  52164032, 52231744, 52297664, 52363072, 52427968, 52494272, 52557376, 52624576, 52690112, 52754368,
  52821952, 52887232, 52952896, 53018176, 53081536, 53148736, 53213504, 53279936, 53344576, 53409728,
  53475776, 53540672, 53608384, 53672512, 53738816, 53804992, 53870528, 53935808, 54000832, 54065728,
  54131776, 54197824, 54263744, 54329152, 54394688, 54460352, 54525248, 54591296, 54655936, 54721984,
  54787904, 54853312, 54918592, 54983744, 55049152, 55114688, 55181248, 55246784, 55312064, 55376704,
  55442752, 55508416, 55574336, 55639744, 55705024, 55769152, 55836224, 55902016, 55967168, 56033216,
  56097856, 56164288, 56228672, 56294848, 56358592, 56426432, 56490176, 56556992, 56621888, 56687168,
  56753728, 56816576, 56884928, 56949056, 57015488]

/-- /repo/octopus/octopus_lookup.go:3-413, entries 615 to 819 -/
def octopusCacheSizes3 : List Nat := [
  57081536, 57146816, 57212096, 57278272, 57343168, 57409216, 57474112, 57540416, 57605824, 57671104,
  57737024, 57802432, 57867584, 57933632, 57998912, 58064576, 58130368, 58195264, 58259648, 58326976,
  58391488, 58457408, 58523456, 58588864, 58654528, 58720192, 58783808, 58849984, 58915904, 58981696,
  59047616, 59113024, 59178304, 59243456, 59309248, 59375552, 59436992, 59506624, 59569856, 59637568,
  59703232, 59768512, 59834176, 59897792, 59964992, 60030016, 60096448, 60161984, 60226624, 60293056,
  60358208, 60423872, 60489664, 60554432, 60620608, 60683968, 60751552, 60817216, 60882112, 60948032,
  61013824, 61079488, 61145024, 61209664, 61275712, 61341376, 61406656, 61471936, 61537984, 61602752,
  61669184, 61733696, 61799872, 61865792, 61930688, 61996736, 62062144, 62127808, 62193088, 62259136,
  62324672, 62389568, 62455616, 62520512, 62585408, 62651584, 62716736, 62781632, 62846912, 62910784,
  62979776, 63045056, 63110464, 63176128, 63242048, 63307072, 63371584, 63438656, 63503936, 63569216,
  63635392, 63700928, 63765056, 63831616, 63897536, 63960896, 64027456, 64093888, 64159552, 64225088,
  64290368, 64355392, 64421696, 64486976, 64551488, 64617664, 64683968, 64748608, 64814912, 64879424,
  64945856, 65009216, 65074496, 65142464, 65208256, 65273792, 65338432, 65402816, 65469632, 65535424,
  65601344, 65666752, 65732288, 65797696, 65863232, 65927744, 65994304, 66060224, 66124096, 66191296,
  66256832, 66321344, 66387392, 66453056, 66518464, 66584384, 66647872, 66715328, 66780992, 66846656,
  66911552, 66977728, 67043264, 67108672, 67174336, 67239104, 67305152, 67370432, 67436224, 67501888,
  67567424, 67631296, 67697984, 67763776, 67829312, 67895104, 67960384, 68026304, 68091328, 68157248,
  68222656, 68287936, 68353216, 68419264, 68484032, 68548288, 68614592, 68681408, 68746688, 68811968,
  68877632, 68942912, 69007808, 69074624, 69139904, 69205568, 69270464, 69337024, 69401792, 69467584,
  69533504, 69599168, 69663296, 69729472, 69795392, 69861184, 69926464, 69989824, 70056512, 70122944,
  70188992, 70253888, 70319168, 70385344, 70451008]

/-- /repo/octopus/octopus_lookup.go:3-413, entries 820 to 1024 -/
def octopusCacheSizes4 : List Nat := [
  70515904, 70582208, 70647232, 70712896, 70778816, 70844096, 70907968, 70973888, 71040832, 71105984,
  71171648, 71237312, 71303104, 71368384, 71432512, 71499328, 71564992, 71630528, 71695168, 71760704,
  71826368, 71892928, 71958464, 72023104, 72089536, 72154304, 72219712, 72285376, 72350144, 72416576,
  72482624, 72547264, 72613568, 72679232, 72744512, 72810176, 72875584, 72939968, 73006144, 73072448,
  73138112, 73203392, 73268672, 73334336, 73400128, 73465792, 73530944, 73596352, 73662272, 73727936,
  73793344, 73859008, 73924544, 73989568, 74055104, 74120896, 74185792, 74251456, 74316992, 74382656,
  74448832, 74514368, 74579392, 74645056, 74710976, 74775104, 74841664, 74905408, 74972864, 75037888,
  75102784, 75169216, 75233344, 75299648, 75364544, 75431872, 75497024, 75562304, 75627584, 75692992,
  75759296, 75825088, 75890624, 75956032, 76021696, 76086848, 76152256, 76218304, 76283072, 76348864,
  76414144, 76479808, 76545856, 76610624, 76676672, 76741696, 76806976, 76873024, 76937792, 77004352,
  77070016, 77134784, 77200832, 77266624, 77331392, 77397568, 77462464, 77528896, 77593664, 77660096,
  77725376, 77789632, 77856448, 77922112, 77987776, 78052928, 78118336, 78184384, 78249664, 78312512,
  78380992, 78446528, 78511424, 78577216, 78642496, 78707648, 78773056, 78838976, 78905152, 78970048,
  79033664, 79100608, 79166656, 79231552, 79297472, 79362496, 79429568, 79494848, 79560512, 79625792,
  79690816, 79757248, 79822784, 79888192, 79953472, 80019008, 80084672, 80149952, 80214208, 80280128,
  80346944, 80411456, 80477632, 80543168, 80608576, 80674624, 80740288, 80805568, 80870848, 80934848,
  81002048, 81067328, 81133504, 81198784, 81264448, 81329344, 81395648, 81460928, 81525952, 81592256,
  81657536, 81723328, 81786304, 81850304, 81919808, 81983296, 82050112, 82116416, 82181312, 82247488,
  82311616, 82378432, 82443968, 82509632, 82573376, 82639936, 82705984, 82771648, 82835776, 82902208,
  82967744, 83033792, 83096768, 83164864, 83230528, 83295808, 83359552, 83426624, 83491264, 83558336,
  83622464, 83689024, 83753536, 83820224, 83886016]

/-- /repo/octopus/octopus_lookup.go:3-413, entries 1025 to 1229 -/
def octopusCacheSizes5 : List Nat := [
  83950912, 84015296, 84081344, 84147776, 84213568, 84277184, 84344768, 84409792, 84475712, 84540608,
  84606784, 84672064, 84736448, 84803008, 84868544, 84934336, 84999104, 85065152, 85130048, 85193792,
  85261888, 85326784, 85391296, 85458496, 85521472, 85589312, 85655488, 85721024, 85786304, 85851968,
  85915712, 85982656, 86048576, 86112448, 86178496, 86244416, 86310208, 86370112, 86441408, 86506688,
  86570816, 86637632, 86703424, 86769344, 86832832, 86900672, 86965568, 87031744, 87096896, 87162304,
  87227968, 87293632, 87358144, 87424576, 87489728, 87555392, 87619648, 87687104, 87751744, 87816896,
  87883072, 87947968, 88014272, 88079168, 88145216, 88211264, 88276544, 88341824, 88406336, 88473152,
  88537664, 88603712, 88670144, 88735424, 88801088, 88862912, 88931776, 88996672, 89062208, 89128384,
  89194432, 89259712, 89324608, 89390272, 89455552, 89521984, 89586752, 89652544, 89716672, 89783872,
  89849792, 89914816, 89980096, 90045376, 90111808, 90177088, 90242752, 90307904, 90373952, 90438848,
  90504256, 90569152, 90635968, 90700096, 90767296, 90832832, 90898112, 90963776, 91026752, 91093696,
  91159616, 91223744, 91291456, 91356992, 91422272, 91486784, 91553344, 91618496, 91683776, 91749824,
  91815872, 91880384, 91945664, 92012224, 92077376, 92143552, 92208832, 92273344, 92339008, 92405696,
  92468672, 92536768, 92601664, 92666432, 92732608, 92798912, 92864192, 92926016, 92994752, 93060544,
  93125696, 93192128, 93257536, 93322816, 93387328, 93453632, 93517504, 93583936, 93648832, 93715136,
  93780032, 93845056, 93913024, 93977792, 94043968, 94109504, 94175168, 94240448, 94306112, 94371776,
  94436288, 94501184, 94568384, 94632896, 94699456, 94764224, 94830016, 94895552, 94960832, 95023424,
  95092544, 95158208, 95223488, 95287744, 95354176, 95420224, 95485888, 95550016, 95614784, 95681216,
  95747776, 95811904, 95878208, 95943872, 96010048, 96075328, 96140992, 96203584, 96271808, 96337856,
  96402368, 96468544, 96532672, 96599744, 96665152, 96731072, 96795584, 96860992, 96927296, 96992576,
  97057984, 97124288, 97189696, 97254848, 97320896]

/-- /repo/octopus/octopus_lookup.go:3-413, entries 1230 to 1434 -/
def octopusCacheSizes6 : List Nat := [
  97385536, 97451584, 97517248, 97581248, 97647808, 97711808, 97779392, 97845184, 97910464, 97975744,
  98041408, 98106688, 98172608, 98238016, 98303168, 98368832, 98434496, 98499392, 98565568, 98631616,
  98696768, 98760512, 98827328, 98891456, 98958784, 99024704, 99089728, 99154112, 99220928, 99285952,
  99352384, 99418048, 99482816, 99547456, 99614272, 99679936, 99745472, 99811136, 99876416, 99942208,
  100007104, 100072384, 100138048, 100204352, 100267072, 100334656, 100401088, 100466368, 100529984, 100597696,
  100662592, 100728256, 100791872, 100858816, 100925248, 100989632, 101056064, 101121728, 101187392, 101253056,
  101317952, 101384128, 101449408, 101514304, 101580608, 101645504, 101711296, 101777344, 101841728, 101905984,
  101973824, 102037696, 102104896, 102168896, 102235712, 102300736, 102366016, 102430912, 102498112, 102563392,
  102628672, 102694208, 102760384, 102825152, 102890432, 102956992, 103021888, 103084864, 103153472, 103217984,
  103284032, 103348288, 103415744, 103481024, 103545152, 103612352, 103677248, 103743296, 103808576, 103873856,
  103939648, 104003776, 104070976, 104136512, 104201792, 104266816, 104332736, 104397376, 104462528, 104529728,
  104594752, 104660288, 104725952, 104791744, 104854592, 104922176, 104988608, 105053248, 105118912, 105184832,
  105247808, 105315904, 105381184, 105446464, 105511232, 105578048, 105643072, 105708352, 105774784, 105839936,
  105903296, 105971648, 106037056, 106099904, 106167872, 106233152, 106298944, 106364096, 106429504, 106495808,
  106561472, 106626752, 106691392, 106757696, 106822592, 106888256, 106954304, 107016256, 107085376, 107149376,
  107216576, 107281984, 107346368, 107413184, 107478464, 107544128, 107609792, 107675072, 107739712, 107806528,
  107872192, 107937728, 108003136, 108068672, 108131392, 108199744, 108265408, 108330688, 108396224, 108461888,
  108527168, 108590656, 108657344, 108723136, 108789568, 108854464, 108920384, 108985792, 109049792, 109116992,
  109182272, 109247296, 109312576, 109379008, 109444928, 109510592, 109572928, 109640512, 109706944, 109771328,
  109837888, 109903424, 109969088, 110034752, 110099648, 110165696, 110230976, 110295616, 110362432, 110426816,
  110492992, 110558912, 110624704, 110689472, 110755264]

/-- /repo/octopus/octopus_lookup.go:3-413, entries 1435 to 1639 -/
def octopusCacheSizes7 : List Nat := [
  110820544, 110886208, 110951872, 111017408, 111083072, 111148864, 111212224, 111279296, 111345088, 111410752,
  111475904, 111541952, 111607744, 111673024, 111738304, 111803456, 111868864, 111933632, 112000832, 112066496,
  112129984, 112196416, 112260032, 112328512, 112393024, 112457792, 112524352, 112590784, 112654912, 112715968,
  112787008, 112852672, 112918336, 112983616, 113049536, 113114944, 113180224, 113244224, 113311552, 113376448,
  113441984, 113505472, 113573312, 113639104, 113704768, 113770304, 113835712, 113901376, 113965888, 114031552,
  114097216, 114163264, 114227648, 114294592, 114359488, 114425536, 114490304, 114556864, 114622016, 114687424,
  114753472, 114818624, 114884288, 114948544, 115014976, 115080512, 115145792, 115212224, 115277632, 115343296,
  115408576, 115473472, 115539392, 115605184, 115670848, 115736128, 115801792, 115867072, 115932352, 115997248,
  116063936, 116128576, 116195008, 116260288, 116325184, 116391488, 116456768, 116522944, 116588224, 116652992,
  116719168, 116784704, 116850368, 116915648, 116981056, 117046208, 117112256, 117178304, 117243712, 117308608,
  117374912, 117440192, 117505984, 117569728, 117636416, 117701824, 117767872, 117833024, 117899072, 117964096,
  118029248, 118094656, 118160704, 118225984, 118291904, 118357312, 118422848, 118489024, 118553152, 118617536,
  118684096, 118749632, 118816448, 118882112, 118947392, 119012416, 119077312, 119144384, 119209408, 119275328,
  119340992, 119406016, 119472064, 119537344, 119601728, 119668672, 119733056, 119798464, 119864896, 119928896,
  119996224, 120061376, 120124864, 120192832, 120255424, 120321728, 120389312, 120454336, 120520256, 120584512,
  120651712, 120716608, 120782656, 120848192, 120913472, 120979136, 121044416, 121109056, 121175872, 121241408,
  121302976, 121372352, 121437376, 121502912, 121568704, 121634752, 121700288, 121764416, 121830208, 121895744,
  121962304, 122027072, 122092864, 122157632, 122224448, 122289088, 122354368, 122421184, 122485312, 122550592,
  122617024, 122682944, 122748352, 122813888, 122879168, 122945344, 123011008, 123075776, 123141952, 123207488,
  123270208, 123338048, 123403712, 123468736, 123535168, 123600704, 123666112, 123731264, 123796928, 123861952,
  123928384, 123993664, 124059328, 124124608, 124190656]

/-- /repo/octopus/octopus_lookup.go:3-413, entries 1640 to 1844 -/
def octopusCacheSizes8 : List Nat := [
  124256192, 124321216, 124386368, 124452032, 124518208, 124583744, 124649024, 124714816, 124778048, 124844992,
  124911296, 124977088, 125041088, 125107904, 125173696, 125238976, 125303744, 125370176, 125432896, 125500352,
  125566912, 125632064, 125696576, 125759168, 125829056, 125894464, 125958592, 126025408, 126090304, 126156736,
  126221248, 126286912, 126352832, 126417856, 126483776, 126549952, 126615232, 126680768, 126746432, 126811456,
  126876608, 126942656, 127008704, 127072832, 127139392, 127204928, 127270336, 127335616, 127401152, 127467328,
  127532224, 127597504, 127663552, 127729216, 127794752, 127860032, 127925696, 127991744, 128055232, 128122816,
  128188096, 128253376, 128319424, 128384576, 128449856, 128516032, 128581312, 128646592, 128712256, 128778176,
  128843584, 128908352, 128973632, 129039808, 129103808, 129171136, 129236288, 129300544, 129365696, 129432896,
  129498944, 129562816, 129629888, 129695168, 129760832, 129825728, 129892288, 129957824, 130023104, 130088768,
  130154048, 130218944, 130283968, 130349504, 130416448, 130482112, 130547008, 130612928, 130678336, 130743232,
  130807616, 130874944, 130939456, 131006272, 131071552, 131134912, 131202112, 131267776, 131331776, 131399104,
  131464384, 131528512, 131594048, 131660992, 131727296, 131791936, 131858368, 131922496, 131987392, 132054976,
  132120256, 132185408, 132250816, 132316864, 132382528, 132448192, 132513728, 132578752, 132644672, 132708032,
  132774976, 132841024, 132905792, 132972352, 133038016, 133103296, 133168832, 133233728, 133299392, 133364416,
  133429312, 133495616, 133562048, 133627328, 133692992, 133758656, 133823296, 133889344, 133954624, 134020672,
  134086336, 134151872, 134217152, 134282944, 134348608, 134414144, 134479808, 134545088, 134607296, 134676032,
  134741056, 134807104, 134872384, 134937664, 135002944, 135068992, 135134144, 135200704, 135265472, 135331136,
  135396544, 135462848, 135527872, 135593152, 135659072, 135724352, 135787712, 135855424, 135921472, 135987008,
  136052416, 136116928, 136182848, 136249024, 136313792, 136379968, 136444864, 136511296, 136576448, 136641728,
  136707904, 136772672, 136837952, 136904384, 136970048, 137034176, 137099584, 137166784, 137232064, 137297728,
  137363392, 137427776, 137494208, 137558464, 137625536]

/-- /repo/octopus/octopus_lookup.go:3-413, entries 1845 to 2044 -/
def octopusCacheSizes9 : List Nat := [
  137690944, 137755712, 137822144, 137887424, 137953216, 138018368, 138084032, 138149824, 138214976, 138280256,
  138344896, 138411584, 138476992, 138539584, 138607808, 138672832, 138737728, 138804928, 138869824, 138936128,
  139001536, 139066688, 139130048, 139196864, 139263808, 139328704, 139394368, 139460032, 139525696, 139590208,
  139656896, 139721024, 139787968, 139852864, 139918784, 139984576, 140050112, 140115776, 140181056, 140245696,
  140311232, 140376512, 140443456, 140508352, 140574272, 140640064, 140705728, 140769856, 140834752, 140902336,
  140967488, 141032768, 141098816, 141162688, 141229376, 141294016, 141360448, 141426496, 141491264, 141556544,
  141621184, 141687488, 141754304, 141819584, 141885248, 141949888, 142015936, 142080448, 142145984, 142212544,
  142278464, 142342336, 142407872, 142474432, 142540352, 142606144, 142671808, 142736192, 142802752, 142868288,
  142933568, 142997824, 143064512, 143129408, 143195456, 143258944, 143325376, 143392448, 143457728, 143523136,
  143587264, 143653696, 143720384, 143785024, 143851072, 143916992, 143982016, 144045632, 144113344, 144177856,
  144244544, 144309184, 144375488, 144440768, 144506176, 144570688, 144637888, 144701888, 144767552, 144832448,
  144899648, 144965056, 145030976, 145096384, 145161152, 145227584, 145292864, 145358656, 145424192, 145489856,
  145554496, 145620928, 145683904, 145751488, 145816256, 145883072, 145947712, 146011456, 146078528, 146144704,
  146210368, 146275264, 146341696, 146407232, 146472512, 146538176, 146601536, 146668736, 146734912, 146800448,
  146866112, 146931392, 146996288, 147062336, 147127744, 147193664, 147259328, 147324224, 147390016, 147455936,
  147520192, 147586624, 147651776, 147717056, 147783488, 147848768, 147914432, 147979456, 148045504, 148110784,
  148176832, 148242368, 148306112, 148373312, 148438592, 148503232, 148569536, 148635584, 148700096, 148766144,
  148831552, 148897088, 148963264, 149028416, 149094208, 149159488, 149225408, 149290688, 149356352, 149420224,
  149486912, 149551552, 149617472, 149683136, 149749312, 149814976, 149880128, 149943616, 150010688, 150076352,
  150142144, 150208064, 150272704, 150338624, 150404416, 150470464, 150535232, 150600256, 150666688, 150732224]

/-- /repo/octopus/octopus_lookup.go:3-413 -/
def octopusCacheSizes : List Nat := octopusCacheSizes0 ++ octopusCacheSizes1 ++ octopusCacheSizes2 ++ octopusCacheSizes3 ++ octopusCacheSizes4 ++ octopusCacheSizes5 ++ octopusCacheSizes6 ++ octopusCacheSizes7 ++ octopusCacheSizes8 ++ octopusCacheSizes9

end Verif.Tables
