/-! # The table of /repo/octopus/octopus_lookup.go:415-825

Written by tools/tables.py. 2045 entries. -/

set_option autoImplicit false

namespace Verif.Tables

/-- /repo/octopus/octopus_lookup.go:415-825, entries 0 to 204 -/
def octopusDatasetSizes0 : List Nat := [
  4294966528, 4311744256, 4328515328, 4345284352, 4362070784, 4378852096, 4395629824, 4412406016, 4429174528, 4445959424,
  4462735616, 4479516416, 4496290048, 4513055488, 4529845504, 4546624256, 4563402496, 4580172544, 4596953344, 4613734144,
  4630502144, 4647278336, 4664064256, 4680840448, 4697616128, 4714392832, 4731160832, 4747933952, 4764726016, 4781497088,
  4798279936, 4815060736, 4831837952, 4848614656, 4865390848, 4882168576, 4898944768, 4915722496, 4932495616, 4949274368,
  4966053632, 4982828288, 4999607552, 5016383744, 5033164544, 5049940736, 5066718464, 5083486976, 5100268288, 5117050112,
  5133826816, 5150603008, 5167373056, 5184147712, 5200934656, 5217712384, 5234480896, 5251263232, 5268044032, 5284815104,
  5301592832, 5318376704, 5335149824, 5351930624, 5368705792, 5385477376, 5402261248, 5419036928, 5435814656, 5452586752,
  5469370112, 5486146304, 5502924032, 5519703296, 5536465664, 5553251072, 5570035456, 5586803968, 5603588864, 5620364032,
  5637143296, 5653918976, 5670698752, 5687468288, 5704242944, 5721028864, 5737801984, 5754573568, 5771353856, 5788139264,
  5804903168, 5821686016, 5838469376, 5855245568, 5872023296, 5888801536, 5905578752, 5922355456, 5939131136, 5955903232,
  5972677888, 5989462784, 6006240512, 6023016704, 6039791872, 6056574208, 6073351936, 6090127616, 6106905856, 6123675392,
  6140456704, 6157230848, 6174007552, 6190789888, 6207564544, 6224346368, 6241124096, 6257889536, 6274678528, 6291450112,
  6308218624, 6325010176, 6341786368, 6358560512, 6375338752, 6392113408, 6408891136, 6425673472, 6442448128, 6459225856,
  6476004608, 6492782336, 6509556992, 6526331648, 6543112448, 6559889152, 6576664832, 6593438464, 6610221824, 6627000064,
  6643774208, 6660546304, 6677317888, 6694106368, 6710881024, 6727654144, 6744440576, 6761216768, 6777995008, 6794769152,
  6811548416, 6828326144, 6845103872, 6861875968, 6878656768, 6895428352, 6912209152, 6928987904, 6945767168, 6962537728,
  6979310336, 6996097792, 7012868864, 7029652736, 7046427904, 7063207168, 7079974144, 7096760576, 7113526528, 7130314496,
  7147090688, 7163868928, 7180648192, 7197425408, 7214197504, 7230976768, 7247754496, 7264531712, 7281293056, 7298087168,
  7314860288, 7331643136, 7348415744, 7365195008, 7381969664, 7398735616, 7415528704, 7432304896, 7449082112, 7465851136,
  7482636032, 7499412736, 7516182272, 7532963072, 7549745408, 7566520064, 7583300864, 7600072448, 7616855296, 7633630976,
  7650409216, 7667185408, 7683963136, 7700740864, 7717511936]

/-- /repo/octopus/octopus_lookup.go:415-825, entries 205 to 409 -/
def octopusDatasetSizes1 : List Nat := [
  7734295808, 7751072512, 7767841024, 7784627456, 7801405184, 7818175744, 7834957568, 7851736832, 7868513024, 7885290752,
  7902064384, 7918844672, 7935618304, 7952400128, 7969176832, 7985949952, 8002727168, 8019502336, 8036282624, 8053060864,
  8069823232, 8086617856, 8103390976, 8120168704, 8136944896, 8153725696, 8170498816, 8187281152, 8204056832, 8220827392,
  8237611264, 8254388992, 8271166208, 8287943936, 8304721664, 8321492224, 8338271488, 8355051776, 8371825408, 8388607232,
  8405383936, 8422153472, 8438927104, 8455710976, 8472493312, 8489267456, 8506045696, 8522824448, 8539599616, 8556369664,
  8573156096, 8589924608, 8606699264, 8623486208, 8640260864, 8657042176, 8673818368, 8690590976, 8707374848, 8724146944,
  8740916992, 8757705472, 8774477056, 8791260416, 8808038144, 8824814848, 8841581312, 8858365696, 8875142912, 8891924224,
  8908688128, 8925476096, 8942238464, 8959033088, 8975808256, 8992579328, 9009364736, 9026136832, 9042919168, 9059692288,
  9076465408, 9093239552, 9110020352, 9126804224, 9143580416, 9160348928, 9177135872, 9193914112, 9210689792, 9227468032,
  9244239616, 9261022976, 9277797632, 9294575872, 9311350528, 9328131328, 9344903936, 9361685248, 9378462976, 9395240704,
  9412014848, 9428794112, 9445572352, 9462346496, 9479124736, 9495903488, 9512681216, 9529455872, 9546228992, 9563008768,
  9579789568, 9596567296, 9613335296, 9630119168, 9646898944, 9663671552, 9680452352, 9697224448, 9714006784, 9730782976,
  9747560192, 9764339456, 9781114624, 9797893888, 9814666496, 9831444736, 9848221952, 9864998656, 9881779456, 9898552064,
  9915332864, 9932109568, 9948876032, 9965662976, 9982442752, 9999214336, 10015997696, 10032772864, 10049527552, 10066329344,
  10083089152, 10099883776, 10116659456, 10133434112, 10150214912, 10166988544, 10183767808, 10200547072, 10217324288, 10234096384,
  10250872064, 10267654912, 10284430592, 10301210368, 10317986048, 10334764288, 10351538944, 10368315136, 10385087744, 10401872128,
  10418649856, 10435422464, 10452205312, 10468980992, 10485754624, 10502527744, 10519308032, 10536081664, 10552868608, 10569638656,
  10586419456, 10603197184, 10619973376, 10636749568, 10653528832, 10670302976, 10687084288, 10703858944, 10720639744, 10737413888,
  10754193152, 10770969856, 10787742464, 10804526848, 10821300992, 10838080768, 10854853888, 10871633152, 10888411904, 10905189632,
  10921962752, 10938735872, 10955521792, 10972297472, 10989073664, 11005851904, 11022630656, 11039406848, 11056179968, 11072962304,
  11089739008, 11106512128, 11123291392, 11140065536, 11156847872]

/-- /repo/octopus/octopus_lookup.go:415-825, entries 410 to 614 -/
def octopusDatasetSizes2 : List Nat := [
  11173622528, 11190386432, 11207170816, 11223945472, 11240732416, 11257500928, 11274287872, 11291056384, 11307842816, 11324620544,
  11341389568, 11358165248, 11374948096, 11391728896, 11408502016, 11425282816, 11442060544, 11458833664, 11475612416, 11492388608,
  11509167872, 11525939968, 11542717184, 11559496448, 11576275712, 11593054976, 11609822464, 11626601216, 11643385088, 11660164352,
  11676937984, 11693711104, 11710494976, 11727272192, 11744048896, 11760822016, 11777599744, 11794372864, 11811153664, 11827933952,
  11844705536, 11861489408, 11878264576, 11895044864, 11911822592, 11928598784, 11945376512, 11962148608, 11978930944, 11995702016,
  12012482816, 12029255936, 12046031104, 12062816512, 12079592192, 12096370432, 12113149696, 12129926912, 12146703616, 12163472128,
  12180257536, 12197035264, 12213812992, 12230578432, 12247361792, 12264140032, 12280919296, 12297698048, 12314474752, 12331249408,
  12348019456, 12364807424, 12381584128, 12398352128, 12415139584, 12431904512, 12448690432, 12465465088, 12482248448, 12499020544,
  12515798272, 12532575488, 12549353728, 12566131456, 12582908672, 12599686912, 12616464128, 12633241856, 12650012416, 12666791168,
  12683569408, 12700349696, 12717124352, 12733902592, 12750675712, 12767459072, 12784238336, 12801008384, 12817791232, 12834566912,
  12851346688, 12868118272, 12884889344, 12901674752, 12918446848, 12935226112, 12952008448, 12968786176, 12985563904, 13002340096,
  13019110144, 13035894016, 13052672768, 13069451008, 13086225664, 13103001344, 13119777536, 13136557312, 13153325824, 13170111232,
  13186886912, 13203668224, 13220439296, 13237220608, 13253998336, 13270770944, 13287554816, 13304328448, 13321105664, 13337883904,
  13354660096, 13371438848, 13388215552, 13404987136, 13421764352, 13438548224, 13455325952, 13472104192, 13488875264, 13505651968,
  13522427648, 13539208448, 13555987712, 13572766976, 13589541632, 13606316288, 13623098624, 13639875328, 13656653056, 13673412352,
  13690203392, 13706982656, 13723760896, 13740538624, 13757310208, 13774092544, 13790866688, 13807644416, 13824425728, 13841193728,
  13857976576, 13874754304, 13891529984, 13908298496, 13925088512, 13941857536, 13958634752, 13975418624, 13992187648, 14008974592,
  14025750784, 14042517248, 14059304704, 14076077824, 14092855552, 14109637888, 14126415616, 14143190272, 14159961856, 14176745216,
  14193518848, 14210299648, 14227073792, 14243856128, 14260630784, 14277399296, 14294184704, 14310958336, 14327731456, 14344499968,
  14361296128, 14378073344, 14394849536, 14411621632, 14428393216, 14445179648, 14461950208, 14478735104, 14495511808, 14512291072,
  14529066752, 14545842944, 14562616064, 14579389696, 14596177664]

/-- /repo/octopus/octopus_lookup.go:415-825, entries 615 to 819 -/
def octopusDatasetSizes3 : List Nat := [
  14612943616, 14629729024, 14646507776, 14663286016, 14680059136, 14696839424, 14713617664, 14730393344, 14747171584, 14763947776,
  14780725504, 14797501184, 14814277888, 14831057152, 14847831296, 14864604416, 14881380608, 14898160384, 14914944256, 14931721984,
  14948498176, 14965271296, 14982047488, 14998825216, 15015606016, 15032384768, 15049159936, 15065934592, 15082716928, 15099491584,
  15116269312, 15133048064, 15149825792, 15166601984, 15183380224, 15200150272, 15216933632, 15233709824, 15250489088, 15267259648,
  15284041984, 15300820736, 15317588224, 15334374656, 15351149824, 15367923968, 15384699136, 15401479424, 15418260736, 15435038464,
  15451811072, 15468590848, 15485366528, 15502138112, 15518914816, 15535698176, 15552476416, 15569253632, 15586029824, 15602810624,
  15619584256, 15636359936, 15653142272, 15669914368, 15686694656, 15703464704, 15720249088, 15737024768, 15753804032, 15770575616,
  15787359488, 15804134144, 15820911872, 15837688576, 15854461696, 15871245568, 15888018688, 15904800512, 15921572096, 15938353408,
  15955130624, 15971906816, 15988679936, 16005460736, 16022238976, 16039016192, 16055792384, 16072570112, 16089349376, 16106124544,
  16122897664, 16139676928, 16156454656, 16173233408, 16190013184, 16206787328, 16223567104, 16240342784, 16257120512, 16273898752,
  16290673408, 16307453696, 16324229888, 16341006592, 16357783808, 16374561536, 16391339264, 16408116992, 16424889088, 16441668352,
  16458444544, 16475225344, 16492001536, 16508778752, 16525550336, 16542334208, 16559107328, 16575888128, 16592666368, 16609430272,
  16626216704, 16642995968, 16659771136, 16676548864, 16693326592, 16710105856, 16726883072, 16743656704, 16760435968, 16777213184,
  16793992448, 16810769152, 16827545344, 16844323072, 16861098752, 16877878016, 16894653184, 16911430912, 16928209664, 16944985856,
  16961764096, 16978541312, 16995319552, 17012090624, 17028869888, 17045647616, 17062417664, 17079204608, 17095981312, 17112757504,
  17129536768, 17146308352, 17163085568, 17179867904, 17196645632, 17213410048, 17230198528, 17246975744, 17263753984, 17280528128,
  17297307904, 17314080512, 17330861312, 17347641088, 17364418304, 17381184256, 17397954304, 17414748928, 17431526656, 17448302848,
  17465080064, 17481856768, 17498631424, 17515409152, 17532178688, 17548961536, 17565743872, 17582520064, 17599291648, 17616068864,
  17632852736, 17649625856, 17666398976, 17683182848, 17699952896, 17716732672, 17733514496, 17750294272, 17767065856, 17783846656,
  17800613632, 17817400576, 17834176768, 17850957568, 17867734784, 17884500736, 17901289216, 17918065408, 17934841088, 17951619328,
  17968395008, 17985168128, 18001952512, 18018724096, 18035504896]

/-- /repo/octopus/octopus_lookup.go:415-825, entries 820 to 1024 -/
def octopusDatasetSizes4 : List Nat := [
  18052282624, 18069061376, 18085835008, 18102615808, 18119388416, 18136169728, 18152942848, 18169723648, 18186501376, 18203277056,
  18220055296, 18236833024, 18253607168, 18270376192, 18287162624, 18303939328, 18320712448, 18337494272, 18354268928, 18371051264,
  18387820288, 18404605696, 18421381376, 18438159104, 18454930688, 18471708928, 18488489728, 18505266944, 18522043648, 18538822912,
  18555598592, 18572377856, 18589148416, 18605931776, 18622703872, 18639480064, 18656263936, 18673033472, 18689814784, 18706593536,
  18723371776, 18740149504, 18756927232, 18773698816, 18790479616, 18807258368, 18824033024, 18840810752, 18857590016, 18874363136,
  18891141376, 18907921664, 18924693248, 18941476096, 18958243072, 18975030016, 18991807232, 19008579328, 19025357056, 19042135808,
  19058912512, 19075687168, 19092467456, 19109242624, 19126022912, 19142797568, 19159577344, 19176356608, 19193134336, 19209908992,
  19226686208, 19243465984, 19260243712, 19277016832, 19293797632, 19310567168, 19327351552, 19344122624, 19360899328, 19377680128,
  19394460928, 19411235072, 19428007168, 19444787968, 19461545216, 19478344448, 19495122176, 19511890688, 19528677632, 19545452288,
  19562233088, 19579007744, 19595785984, 19612565248, 19629340928, 19646113024, 19662878464, 19679667968, 19696448768, 19713227008,
  19730001152, 19746782464, 19763544832, 19780325632, 19797112576, 19813881088, 19830666496, 19847442176, 19864217344, 19880993024,
  19897776896, 19914553088, 19931332352, 19948096768, 19964882176, 19981660928, 19998439168, 20015205632, 20031993088, 20048770304,
  20065548032, 20082327296, 20099097856, 20115880192, 20132658944, 20149435648, 20166210304, 20182990592, 20199757568, 20216544512,
  20233321216, 20250098432, 20266874624, 20283651328, 20300427008, 20317202176, 20333982464, 20350757632, 20367532288, 20384314624,
  20401090816, 20417871104, 20434644224, 20451425536, 20468198656, 20484978944, 20501752064, 20518529792, 20535312128, 20552085248,
  20568858368, 20585640704, 20602418944, 20619197696, 20635975424, 20652750592, 20669526784, 20686307072, 20703083264, 20719861504,
  20736637184, 20753414912, 20770193152, 20786969344, 20803734272, 20820524288, 20837294848, 20854078208, 20870851328, 20887620352,
  20904407296, 20921179904, 20937964288, 20954738944, 20971518208, 20988295424, 21005067008, 21021846784, 21038627072, 21055405312,
  21072182528, 21088957184, 21105735424, 21122511616, 21139284736, 21156065536, 21172846336, 21189611264, 21206400256, 21223177984,
  21239952128, 21256722688, 21273508096, 21290286848, 21307063552, 21323840768, 21340615936, 21357393664, 21374172928, 21390950144,
  21407726336, 21424492288, 21441279232, 21458053376, 21474829568]

/-- /repo/octopus/octopus_lookup.go:415-825, entries 1025 to 1229 -/
def octopusDatasetSizes5 : List Nat := [
  21491612416, 21508381952, 21525162752, 21541942528, 21558712576, 21575494912, 21592271104, 21609050368, 21625831168, 21642603776,
  21659384576, 21676156672, 21692938496, 21709716736, 21726494464, 21743262976, 21760046848, 21776824064, 21793599232, 21810377984,
  21827148032, 21843929344, 21860705536, 21877485824, 21894265088, 21911037184, 21927819008, 21944596736, 21961374976, 21978149632,
  21994925824, 22011703552, 22028482304, 22045255424, 22062034688, 22078807808, 22095586048, 22112369408, 22129141504, 22145921792,
  22162687744, 22179475712, 22196256512, 22213029632, 22229808896, 22246587136, 22263360256, 22280130304, 22296916736, 22313691392,
  22330473728, 22347248384, 22364027648, 22380805376, 22397581568, 22414358272, 22431137536, 22447914752, 22464691456, 22481469184,
  22498245376, 22515022592, 22531799296, 22548571904, 22565351168, 22582130944, 22598905088, 22615684864, 22632462592, 22649233664,
  22666018048, 22682791168, 22699565312, 22716344576, 22733120768, 22749900032, 22766679296, 22783443712, 22800234752, 22817008384,
  22833787136, 22850566912, 22867343104, 22884122368, 22900889344, 22917675776, 22934453504, 22951223552, 22968007936, 22984784128,
  23001561344, 23018338048, 23035101952, 23051888896, 23068671232, 23085448448, 23102223616, 23119001344, 23135780608, 23152554752,
  23169334016, 23186112256, 23202886912, 23219660032, 23236443904, 23253214976, 23269990144, 23286775552, 23303550208, 23320323328,
  23337105152, 23353881856, 23370660608, 23387437312, 23404212992, 23420992256, 23437765376, 23454546176, 23471320832, 23488100096,
  23504874752, 23521649408, 23538432256, 23555209472, 23571982592, 23588763904, 23605540096, 23622315776, 23639097088, 23655865088,
  23672649472, 23689426688, 23706201856, 23722972928, 23739759872, 23756536064, 23773313792, 23790089984, 23806866176, 23823645952,
  23840421632, 23857200896, 23873974528, 23890751744, 23907522304, 23924302592, 23941086976, 23957857024, 23974640896, 23991416576,
  24008190208, 24024972544, 24041750272, 24058511104, 24075304192, 24092078336, 24108859136, 24125627648, 24142413056, 24159189248,
  24175967488, 24192742144, 24209519872, 24226294528, 24243069184, 24259849984, 24276629248, 24293406464, 24310183168, 24326962432,
  24343729408, 24360511744, 24377287936, 24394068224, 24410849024, 24427622656, 24444398848, 24461180672, 24477955328, 24494730496,
  24511510784, 24528286976, 24545063168, 24561840896, 24578619136, 24595389184, 24612173056, 24628950784, 24645730048, 24662507264,
  24679280896, 24696058624, 24712837888, 24729610496, 24746393344, 24763161856, 24779938048, 24796715264, 24813501184, 24830276864,
  24847055104, 24863832832, 24880609024, 24897384704, 24914162432]

/-- /repo/octopus/octopus_lookup.go:415-825, entries 1230 to 1434 -/
def octopusDatasetSizes6 : List Nat := [
  24930935552, 24947719936, 24964491008, 24981273344, 24998051072, 25014823168, 25031603456, 25048381184, 25065154304, 25081932544,
  25098708736, 25115486464, 25132259072, 25149046528, 25165823744, 25182598912, 25199376128, 25216149248, 25232926976, 25249691392,
  25266479872, 25283263232, 25300039936, 25316814592, 25333590272, 25350366464, 25367149312, 25383920384, 25400701184, 25417480448,
  25434257152, 25451031808, 25467813632, 25484590336, 25501360384, 25518143744, 25534921472, 25551697664, 25568473856, 25585253632,
  25602029312, 25618808576, 25635578624, 25652363008, 25669137664, 25685909248, 25702691584, 25719464704, 25736244992, 25753024256,
  25769802496, 25786578176, 25803345664, 25820135168, 25836910336, 25853684992, 25870465792, 25887241472, 25904019712, 25920793856,
  25937573632, 25954352384, 25971127552, 25987902208, 26004683008, 26021460736, 26038230784, 26055012608, 26071790336, 26088545024,
  26105346304, 26122125056, 26138892544, 26155677952, 26172454144, 26189227264, 26206000384, 26222787328, 26239565056, 26256315136,
  26273118464, 26289890048, 26306659072, 26323448576, 26340223744, 26357005568, 26373769472, 26390559488, 26407334144, 26424114944,
  26440891648, 26457664256, 26474442496, 26491221248, 26508001024, 26524776704, 26541554944, 26558332672, 26575106816, 26591886592,
  26608663808, 26625438976, 26642216192, 26658989312, 26675771648, 26692549888, 26709327616, 26726102272, 26742878464, 26759650048,
  26776421632, 26793210112, 26809990912, 26826760448, 26843542784, 26860319488, 26877092096, 26893874432, 26910653696, 26927416576,
  26944207616, 26960985344, 26977751296, 26994539776, 27011315456, 27028090624, 27044871424, 27061649152, 27078420224, 27095198464,
  27111978752, 27128758016, 27145532672, 27162308864, 27179089664, 27195865856, 27212641024, 27229421312, 27246194944, 27262955264,
  27279749888, 27296528128, 27313305856, 27330083584, 27346861312, 27363636992, 27380415232, 27397191424, 27413964544, 27430746368,
  27447524096, 27464300288, 27481073408, 27497853184, 27514632448, 27531401984, 27548180224, 27564955904, 27581738752, 27598518016,
  27615295744, 27632073472, 27648850688, 27665628416, 27682404608, 27699182848, 27715957504, 27732737792, 27749509376, 27766290688,
  27783066368, 27799838464, 27816622336, 27833384192, 27850170112, 27866946304, 27883732736, 27900507392, 27917287168, 27934064384,
  27950834432, 27967615232, 27984395008, 28001164544, 28017947392, 28034726144, 28051504384, 28068275968, 28085056768, 28101836032,
  28118603008, 28135383296, 28152167168, 28168940288, 28185704704, 28202499328, 28219271936, 28236049664, 28252815104, 28269608704,
  28286377216, 28303155968, 28319936768, 28336714496, 28353483008]

/-- /repo/octopus/octopus_lookup.go:415-825, entries 1435 to 1639 -/
def octopusDatasetSizes7 : List Nat := [
  28370254592, 28387042048, 28403822848, 28420603648, 28437370112, 28454134528, 28470934784, 28487710976, 28504486144, 28521260288,
  28538043136, 28554818816, 28571598592, 28588375808, 28605142784, 28621923584, 28638707456, 28655477504, 28672261888, 28689037568,
  28705812736, 28722593024, 28739370752, 28756142848, 28772925184, 28789696256, 28806461696, 28823254784, 28840027904, 28856804608,
  28873586944, 28890363136, 28907139328, 28923919616, 28940695808, 28957474048, 28974245632, 28991022848, 29007803648, 29024583424,
  29041355008, 29058129664, 29074913536, 29091691264, 29108468992, 29125236992, 29142022912, 29158797568, 29175578368, 29192345344,
  29209129216, 29225907968, 29242682624, 29259448576, 29276241664, 29293006592, 29309795072, 29326569728, 29343350528, 29360122112,
  29376895232, 29393671936, 29410456832, 29427233536, 29444006656, 29460784384, 29477568256, 29494345472, 29511122176, 29527895296,
  29544673024, 29561450752, 29578220288, 29594999552, 29611785472, 29628553984, 29645340416, 29662112512, 29678888704, 29695672064,
  29712445696, 29729225984, 29745995008, 29762777344, 29779551488, 29796330752, 29813106944, 29829889792, 29846659328, 29863443712,
  29880219392, 29896994048, 29913774848, 29930553088, 29947327232, 29964106496, 29980879616, 29997661952, 30014433536, 30031211776,
  30047990528, 30064770304, 30081536768, 30098309888, 30115098368, 30131878144, 30148656896, 30165430016, 30182208256, 30198987008,
  30215758592, 30232538368, 30249319168, 30266084608, 30282863872, 30299648768, 30316428544, 30333204736, 30349982464, 30366756608,
  30383521024, 30400308992, 30417085184, 30433863424, 30450646784, 30467416832, 30484196096, 30500978432, 30517750528, 30534530816,
  30551309056, 30568086272, 30584862976, 30601639168, 30618416384, 30635193088, 30651972352, 30668749568, 30685527296, 30702303488,
  30719081216, 30735859456, 30752636672, 30769412864, 30786185984, 30802963712, 30819739904, 30836517632, 30853299968, 30870075136,
  30886851328, 30903630592, 30920406784, 30937178368, 30953958656, 30970738432, 30987511552, 31004293888, 31021068544, 31037848832,
  31054622464, 31071398144, 31088178944, 31104956672, 31121733376, 31138509056, 31155285248, 31172062976, 31188838144, 31205618944,
  31222398208, 31239172864, 31255950592, 31272729856, 31289507584, 31306283776, 31323058432, 31339837696, 31356610304, 31373393152,
  31390166272, 31406948096, 31423723264, 31440502528, 31457272576, 31474054912, 31490834176, 31507609856, 31524388096, 31541165312,
  31557942016, 31574716672, 31591495424, 31608264448, 31625046784, 31641819392, 31658600192, 31675382528, 31692143872, 31708933888,
  31725711616, 31742489344, 31759269632, 31776041216, 31792819456]

/-- /repo/octopus/octopus_lookup.go:415-825, entries 1640 to 1844 -/
def octopusDatasetSizes8 : List Nat := [
  31809598208, 31826370304, 31843154176, 31859932928, 31876709632, 31893486848, 31910258944, 31927039744, 31943815936, 31960592128,
  31977369856, 31994146048, 32010921728, 32027702528, 32044482304, 32061258496, 32078025472, 32094813952, 32111589632, 32128362752,
  32145142528, 32161915648, 32178693376, 32195475712, 32212250368, 32229029632, 32245808384, 32262585088, 32279357696, 32296133888,
  32312907008, 32329679104, 32346472192, 32363246848, 32380024064, 32396802304, 32413581056, 32430354688, 32447135488, 32463912704,
  32480689408, 32497462016, 32514235648, 32531008768, 32547797248, 32564563712, 32581337344, 32598128384, 32614898432, 32631684352,
  32648460032, 32665227008, 32682012928, 32698788608, 32715566336, 32732344576, 32749123328, 32765902592, 32782675712, 32799452416,
  32816232704, 32833010944, 32849784064, 32866564352, 32883336448, 32900117248, 32916897536, 32933673728, 32950448896, 32967226112,
  32984002816, 33000783616, 33017559296, 33034333952, 33051110656, 33067888384, 33084661504, 33101439232, 33118221056, 33134994176,
  33151777024, 33168549632, 33185330944, 33202102016, 33218885888, 33235664128, 33252437248, 33269214976, 33285992192, 33302771456,
  33319547648, 33336327424, 33353105152, 33369876224, 33386657536, 33403436288, 33420190976, 33436984576, 33453767936, 33470545664,
  33487322368, 33504099584, 33520873216, 33537654016, 33554428672, 33571198208, 33587985664, 33604763392, 33621537536, 33638303488,
  33655085312, 33671869696, 33688647424, 33705423104, 33722203904, 33738979072, 33755753728, 33772531456, 33789306112, 33806089472,
  33822862592, 33839643392, 33856414976, 33873185536, 33889975552, 33906751232, 33923527936, 33940305664, 33957081856, 33973859072,
  33990638336, 34007408896, 34024193792, 34040962304, 34057741568, 34074524416, 34091299072, 34108079872, 34124852992, 34141628672,
  34158411008, 34175184128, 34191956224, 34208738048, 34225518848, 34242295552, 34259072768, 34275852032, 34292628736, 34309401856,
  34326179584, 34342960384, 34359728384, 34376513792, 34393289984, 34410067712, 34426846976, 34443622144, 34460397824, 34477176064,
  34493953792, 34510720768, 34527509248, 34544286464, 34561060096, 34577837824, 34594618624, 34611392768, 34628171008, 34644950272,
  34661727488, 34678504192, 34695280384, 34712052992, 34728827648, 34745593088, 34762380032, 34779166976, 34795945216, 34812721408,
  34829497088, 34846271744, 34863054592, 34879831808, 34896606464, 34913383168, 34930163456, 34946936576, 34963714816, 34980495104,
  34997271808, 35014044928, 35030818048, 35047603456, 35064379648, 35081155328, 35097932032, 35114706688, 35131482368, 35148263168,
  35165038336, 35181814016, 35198592256, 35215375616, 35232153344]

/-- /repo/octopus/octopus_lookup.go:415-825, entries 1845 to 2044 -/
def octopusDatasetSizes9 : List Nat := [
  35248911616, 35265704704, 35282477312, 35299261696, 35316037888, 35332807936, 35349588224, 35366356736, 35383146752, 35399924992,
  35416701184, 35433479936, 35450253056, 35467034368, 35483796224, 35500587776, 35517346048, 35534140672, 35550916864, 35567697664,
  35584473856, 35601251072, 35618024704, 35634805504, 35651571968, 35668357888, 35685127936, 35701911296, 35718689024, 35735465728,
  35752238848, 35769023744, 35785800448, 35802574592, 35819355392, 35836116224, 35852902144, 35869687552, 35886461696, 35903218432,
  35920017152, 35936795392, 35953568512, 35970350848, 35987128064, 36003904256, 36020679424, 36037457152, 36054233344, 36071006464,
  36087788288, 36104566528, 36121344256, 36138112768, 36154899712, 36171674368, 36188451584, 36205226752, 36222009088, 36238777088,
  36255562496, 36272340736, 36289117952, 36305894656, 36322672384, 36339448576, 36356217088, 36372997888, 36389773568, 36406551296,
  36423332096, 36440097536, 36456889088, 36473666816, 36490441472, 36507221248, 36523989248, 36540774656, 36557549312, 36574326016,
  36591102208, 36607883008, 36624656128, 36641435392, 36658211584, 36674992384, 36691763456, 36708538112, 36725320448, 36742100224,
  36758871808, 36775656704, 36792427264, 36809211136, 36825986816, 36842758912, 36859540736, 36876309248, 36893087488, 36909874432,
  36926651648, 36943426816, 36960199424, 36976977152, 36993756928, 37010537728, 37027307264, 37044090112, 37060863232, 37077647104,
  37094422784, 37111201024, 37127978752, 37144754432, 37161518848, 37178308864, 37195086592, 37211862784, 37228641536, 37245416704,
  37262192896, 37278973696, 37295749376, 37312525568, 37329303296, 37346075392, 37362858752, 37379629312, 37396403456, 37413189376,
  37429960448, 37446740224, 37463522048, 37480300288, 37497077504, 37513854208, 37530629888, 37547403008, 37564182784, 37580963072,
  37597739264, 37614517504, 37631293184, 37648069376, 37664844544, 37681626368, 37698401536, 37715171584, 37731953408, 37748731648,
  37765512448, 37782290176, 37799058688, 37815823616, 37832620288, 37849394432, 37866172672, 37882951936, 37899730688, 37916500736,
  37933283072, 37950056192, 37966837504, 37983615232, 38000391424, 38017169152, 38033947904, 38050721536, 38067499264, 38084280064,
  38101056256, 38117833984, 38134609664, 38151388928, 38168163584, 38184937216, 38201719552, 38218494208, 38235268352, 38252052224,
  38268827392, 38285604608, 38302382336, 38319157504, 38335933184, 38352710912, 38369479424, 38386267904, 38403044096, 38419820288,
  38436601088, 38453377792, 38470155008, 38486933248, 38503693568, 38520487168, 38537264384, 38554037504, 38570818304, 38587595008]

/-- /repo/octopus/octopus_lookup.go:415-825 -/
def octopusDatasetSizes : List Nat := octopusDatasetSizes0 ++ octopusDatasetSizes1 ++ octopusDatasetSizes2 ++ octopusDatasetSizes3 ++ octopusDatasetSizes4 ++ octopusDatasetSizes5 ++ octopusDatasetSizes6 ++ octopusDatasetSizes7 ++ octopusDatasetSizes8 ++ octopusDatasetSizes9

end Verif.Tables
