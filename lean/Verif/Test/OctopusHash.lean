import Verif.Model.Generate
import Verif.Model.Octopus
import Verif.Test.Sponge

/-! # Conformance test: Octopus on the first vector of /repo/octopus/octopus_test.go:17-22

The dataset items come from the independent program tools/ref/ref.c; the expected values are those of /repo. A lookup of any other
index fails. -/

set_option autoImplicit false

namespace Verif.Test.OctopusHash

open Verif Go Verif.Octopus

def items : List (U32 × String) := [
  (23789368, "" ++
    "090d70b853870dcd191c365131675ac64d93a17dd15bfde8e01a23ceb67e2de1a33cf772391357b6dae40d3fdb18006260326841e1585992975ce1c0afdfd87f"),
  (23789369, "" ++
    "aa87d254e46cfbc70a5079875177661979d061c38379260ccc746072973b54d8043a04e12f761e4611a3bd8cf80a8b3ff7880d39dc5abcdae0e05b3fb03c0d85"),
  (23789370, "" ++
    "c027e5d7bfae9b8ccc5799c3400c15dfa6286a550fddcb8a131484c8873d01d807c1914f148be1f6e3573985cbcc503274d396b8df626d29a54b54d124d04b90"),
  (23789371, "" ++
    "7a909be26ff8ad80cb7ce733d1c6676d10514fbd44b3f1491780a3f5e55b1efa664ebbcee96f65b8ffb7afda42067fcc4227724b49c5a0756c03ef857e8ebd54"),
  (9199108, "" ++
    "4e72e9c4a19117d9ae112ee0b8c583ec35c2ba6fbab5b89d5ca67e3875f4f59f3bc383ba0224f14394068ab78d3aee79262ce969c3b40a09b9eb96a593ccd828"),
  (9199109, "" ++
    "2d3d76fd10b41c9b7c30aedb6ce3a98f307522e2a0ce6bf93a53bab71bdb348f01819ab152a4ca38ecfda88e9336e3d532df5ed73fd8bf8fafec2a5708736221"),
  (9199110, "" ++
    "f218f37885b78502db24cde9139b66f997712bc61907d3e6332b58fee12c80fe0192bbb26f7bc403ae4dc3ce837ff6332e8e97281045047ec83e5e8ba8444bfe"),
  (9199111, "" ++
    "b49b677afbf013ddf6b1defe72c7a6eefaa8ea2b6a9425df5a21129e0535fc71bb65eb4eb6aee9b91854505ff290bd06cb0f5b56982a05032a3be34d2b3c15b3"),
  (28171628, "" ++
    "9c4853b817959a2b17db4218b4e528fdf3373a17a4498b8e18bca4c8aab3b726034a13c8b8c5c11c4856070bb27c05efbcf5b8a411925d4aa38ba5995a795794"),
  (28171629, "" ++
    "cafba380d9ff37fbbe0e4366ca914e41f34b043b702e1853d9fa52f8231063872aaf8fb14cc9b5ecb469a2ceb597bc7ea4345637e935fd70ac6e3e5e7f0a194f"),
  (28171630, "" ++
    "cba02703373e4327c81c6bd23e2a08e826fb7c217b16bb25dd6bdc4cd1bf4e1398964aca661bd71f2d73913dcdf5dc3f0f494af7b56a1cb7fc842971f3ca8058"),
  (28171631, "" ++
    "55dd87d6430c144527bd70a63385c026c6a27232bd2e3cdebca5425c919ad95fd97caa6c472b9fb1bf06e73283088a883712ae85bbb62e3d8b44e2b45a71078f"),
  (3709936, "" ++
    "5e8731cab687b02607fb6f0e910714b5f199d931e73b5c953c6b1a5ec003569b872b1c4370efff0a94677ad7000dde31445527f55c70ccf65799264e1aa35c2c"),
  (3709937, "" ++
    "d06c2f16984163ebd24967240489a34aa90a2db0bca7f6b3e33fe762feefa4e23b102239d8659bc71bc36059fa445aefb3fb8825e7072f29f205c1b8be2ffc7b"),
  (3709938, "" ++
    "391672052f31ed1c57c024a2e4fb01eb5d199a4a677415711919971f6c534e973a1d1df632f0f8d514c55ab303ad13d9be9191b4b17fa9fb0e5e6018e4ea1c69"),
  (3709939, "" ++
    "c98b020b81497683821ff848fcca621b6f009da7d4abde319cb020acd2558d1348f0ceb04df30ac670bc2ea3361dc68122050b76892b79949b5a807e1dca7a17"),
  (16331640, "" ++
    "df3e13ce0515d5a289e57bd1fc2f076de8c369fb59d6ba69ee80ee9f80b268ce9bd91e7c87d76f529f4ae4a5e71cbef568f3c830584fd45d607904f8aae6c9f2"),
  (16331641, "" ++
    "4eee28230d1c13663364186a850a5975f6197c9f3e056568fc42566491fe6b60f3ec75bb18a2620529902fde46ea7fdb8da7217ad367701654b7dbdacdcb3bdc"),
  (16331642, "" ++
    "1b485949dc7265268c790e0df665baa07aa0ab54b70569af4df15bd1c542c9ce50236f7a4839e86ac685a0fd2b5c16cb8cf173ea0e16fcd966efe93e20745ce2"),
  (16331643, "" ++
    "e54ff1ba007d41918b7c2b8c148d5e3a0158c2c497a8fe090ed17b751a58e0744768a6f49a833c4414e06e7a3e5e15aad7baf0e9c07957b9927b39015f1bb06b"),
  (13872056, "" ++
    "de6c453ca5d12fd93f0924ec5d5747216007bf6aaa81adf121a606764d10b37d2da7b3f164b2d27a6c373d23482e7372c0aabc2e756686505ae03f5a9bd8fee2"),
  (13872057, "" ++
    "2b7d74264cbc83c09b4c7b3c871ac1c349d46bdb972cceafeb5b6da545a6981a8f0d7547544e0a305ad79e084ebaee6f1448c64252947bca8bce6eb0308f2560"),
  (13872058, "" ++
    "55500fbb5493ea691a1960598142e7be8d9c436380fdb264f7da505d1e77ccd1f014de5e2df200044af5c39cd313bf2883534694896197ec8d220d33a441f273"),
  (13872059, "" ++
    "bafc648597b38351053fb54d53e01a5e8a20cbd41484a2a17b770ed1ecbbd391b834ce436ff9f196be6db371ed87d8c0505d947e3653ceefbe2b6ccfed54572f"),
  (30201868, "" ++
    "403b8a2df68da7eaf32f7888d64c17af6df12df8edb29922cc99cb3ed2a61ff792901c52d59510549a5cd69d6dbf659ee38b66f72864931f2d874df4becd66df"),
  (30201869, "" ++
    "5db69c98e06cc5bd824971678756c9baabdea4ddd58ed6fd438b1ca66ddbb200ed2a02f52d27c02e3766cf9d257b64b6bb759d91df6d43b3b74b130b5a5d1440"),
  (30201870, "" ++
    "fe5b6df9e772e87ab8a3a9c9a6d32a0b6f8377329884fe23ccd615b2f17a4aee7bb5a1c1e8ce373479aff32db085d61b1118d36737fc91134067e9aeb56d498f"),
  (30201871, "" ++
    "e3d6e2af5a4e59359fa369f9eddd1ff8bf601cd78b5df9fbb66738b6c64f477261ef79f330109257ec46f2e85b007b38936d2a7b36dd63643e6cac0df4d34b47"),
  (3543868, "" ++
    "574bd17128e5d8e773e1b72b83e80878137cd8d18af948ab5f949466504b0f22ef35c48c91a3785a0d095026e76ca6d85febbd4f4bddf99ace2fe4ce9cbeabc9"),
  (3543869, "" ++
    "06cc023b0d2afeb49832c572694b0c3ed7a363bc02a361a2d28b7d5ef64e60563778bef90c0d6cc251816400624741ae031e462dbd7a56c0c7537548aebe7cc3"),
  (3543870, "" ++
    "bc4e348e866762bb6a3ddea005052235a43e895b6cef491ab740a2cb654b4d2e301cd639d861ac9a3e6e0aba6075d241dea8d8f1fff53ce2d1721ee6b9f6800f"),
  (3543871, "" ++
    "63a972abeb3d53ddaed604d369b8a3a977980231586d6b3b8e492214aab906defbd6886d2f8893e519f1ca3ad76253726aee9845a7b45264c7e96ad749201baf"),
  (39789960, "" ++
    "a924896e85ba2f019ba491984318ab6dfcdf4efb6a9211ee14eec0161317b21439a7818f42254f64d0adfed83b1b60927bc42d0cd1cc840117d4ed92207cddc4"),
  (39789961, "" ++
    "5d4aca37c570d9e4642c0eb7e1bac8fd5d6722dbfa0a366a6502a7f021406be59a21cd1e73618ceb971b1dacc795817caef78da4b2a4bdc948b7f78fea5ca2ae"),
  (39789962, "" ++
    "00aeef26ac9338a5559fc441a51b51a1f04c35d08bf68efb297b27801ae2de9372b5cce72c95376b5f8d15e52466601211188ac2415199f3b54a278b913959de"),
  (39789963, "" ++
    "c39b2ad8c721bacce71a5128c6b6aac9650ac95b9c544b5d3cfde8728a8745103d0a5e4d83a16434e114a1d3a31fe0d39a2a09ed55afbf4a7482099924a51913"),
  (45238108, "" ++
    "e635f4fcd357fcd30ff45a2fc064770d3e65fd9bff1716cae10733d3ad3b076044c6bc3553c1564e66fa8bceec56daeffa9e3c2baef6b81160bc5398295176c1"),
  (45238109, "" ++
    "9ec6bbfabdda0c19da53b9a99442d2448b7a88d045efcd5e8ef1188d2de0a7019660cc107a09374a69567f23a043254b1fb4a310ab8d21769f0347e0cb1c8d02"),
  (45238110, "" ++
    "618754fb90a4ea03b1581cadee38a8c21850b3956e7edc1a66f171de5fb119e54db3feaeb79592af77cb305ba210fe7e2fb06066e4c6b31b82eac7e458133f75"),
  (45238111, "" ++
    "75f0d5978d8e2dbf047be4d40e89ef2812525a88d71b05b18dc3ebd329a702549d85488c47761a37210c46b5e7dd949998581932ed92ad2a0493da4f48851ade"),
  (65776940, "" ++
    "e1c1a95a874d7c83d16f8b992f4188e44d9b6c300596f67013c57f09617cd424a33d03c92ca20940f25d2857c9d8e53c44644cbc729d3a526a677868de223cc1"),
  (65776941, "" ++
    "48a822d9d78def54722caabea34cea961b77808d99a359cc9e0851d0662e309915681b3bdc43b96cf39457c2aaa7ad5f522263e2f199d1cf2848f31ccc7e9aee"),
  (65776942, "" ++
    "b7052decb403e684264b8c9d2c6f372800fc8ca8a74194502bce2d72804bbe6058ff3bef38a98b88a2cea2f3c04fde58b33b33a1fe20ed4f6b6cfcfd21f873d1"),
  (65776943, "" ++
    "74337a61f3aec6f32919f31311026e056b31fd7b976f8b1681e08c650d5abeeebf67f4e7fdc0f2cb60c8672ec21b66a610710e78a35c201151ef1b78b1563b41"),
  (52351040, "" ++
    "da960e9959253ca8ed67e415632b5b44d4de667a91b98eabb7f295531ea0c9c135957f9418ce05612e6060a91801408cba72910b63537ef0fc668b54a23bbd34"),
  (52351041, "" ++
    "a039128da418627640e850f3f7d836a8ecad0512b2d46833958aeed8ebd0809374d5419968f27ea077fe1f905b6bd850cc89341757e300a5fa67099d48d3df55"),
  (52351042, "" ++
    "d861974e0e655d81b4a5a1d23685591e8dbf638d79b06512ac2fc5eb4b45cd55337c76372d7bd41c9ac5e06de4dab626cf890ceec7aaa09f4bbc6992df24e519"),
  (52351043, "" ++
    "b53940a04f1de5048c2d72ad3545a436a94c7aea268d8df4f1e07476272b1e68194467624aa199e7cf9fd068f2f2788cb575b56b68f79d82ee148b9915e1a1f7"),
  (30588100, "" ++
    "8a448ee4edbbb8dff6c2ab39a823e9902d8bf2bb0883291169e9c9b22fa333527f7710f82414688efbb1224bff76f3721c04233b9edf435bb00ccf234341449e"),
  (30588101, "" ++
    "f823a08837316432d04b8c2c70eff013b0fc3553525dfeaa237cbca651c9a585983337ddb1e1401a67c1931140889ba74acde658291d2f82aa4c06648693fe34"),
  (30588102, "" ++
    "541ebd87c1aaf2cfcf05d3bdb7eddec79db9a62a563084fbdf3706289de7efaa596abf549df7e1cf7810736f33d870b27e41d4b56ecf95361fa627c1c0fa9116"),
  (30588103, "" ++
    "85e1826a5c64013f455f53cbdcf8c359f96c89dfd4a00f727a0935da025671d3e6c483c1fb2f468ceb8077e4af178f6b290d6068136bb6299028ecf4115ef8f5"),
  (4824832, "" ++
    "fe6865a9994718cbcc553bba351ee66a120cf5511c31b5cf50e84840db2c4b91630eab11bd02c5793805435c79de1e4d3adf6e5cfb53183ced2bc24c4ddcec24"),
  (4824833, "" ++
    "f9896960207be0d174428fed12e9349bd42e1f3106764c344d901f0757c0169ca0aa574b59d22899cfb811125422b9b613ed3fe54cb3df7ee735f0d2d56fa9bd"),
  (4824834, "" ++
    "a152bc28c553eb2eead9529ec26d16945ed5ce6e661e9e5f161356bff1b46e1fe4988d898ba13979cb60abccec80f5e7f99fd3ae0b9931df9b54b6337651a922"),
  (4824835, "" ++
    "b1f04057a650561260fb3ccf25c544d9df1f170c6c99ac061063d0f91bfe6ad5dcc54f73df3ab90925d2d6e817a37014203eb719632897eb2c62c941861b9be0"),
  (30194748, "" ++
    "db1a3ab392669a02c6d78aa8f3dee8d6dcb2d7c3cfcb7ef57fbf372576d4bc0688d16541228f8ab8e4af4444e11dcb9bfbce573b36097dae38c3eeb925d3b591"),
  (30194749, "" ++
    "351056c52090eeb1447c97ccd89edf241b64f65278b67617e14e81904c30e8ac7567961548c13d697c027ca325853d4b008fd01513e362a9db0da8e4890cdda4"),
  (30194750, "" ++
    "2b4708d547d2905a7e9ed196bdeb9725ebdbbddb177d36883e587a0321b585c3d05eb130c5bff2b7672e980d09c3e69df60367ca78d40727b83a354fbc496586"),
  (30194751, "" ++
    "3e16d46392adf82dbfd80f96e9226d7ec7ae0d3ed4640bd984913c0efe019b0429f4d9797b4c0f59c4958839a8f5932af9b1fc0f49d95c8b63cf40e17855ad86"),
  (20010808, "" ++
    "00eac68af052b89a46ad48395c041da52a12f7631fcd677051418be67c67c15d3fd2fb609909f861834feef838a777e17d472d5cfafbf02b065a6d75e1569e6f"),
  (20010809, "" ++
    "dd0c94277ff657fe76afadd385db658567429181ef48ae563b8fab65037aa70472e274d0b08d76d1b7f3ab753f8dabbf22c08ed277760c49b1927876256cc229"),
  (20010810, "" ++
    "13c4cd1624dd19bbe3c33e98d30a2579c674a851acf6f5b5136c5be100f0242af3e8d2bd83c05c9b24bd3d6bed1ab8c5ca005b1d2e00c5b75336d04efba0ffdb"),
  (20010811, "" ++
    "3c183b2356952cd5e280bfd2abb8634ff8299c60d9edc5056b8fad70153e761aaa9d742042c720d661028138c58a7f4f97a8704c0f08a9e3100b8ab5bb19e1cd"),
  (21381944, "" ++
    "66835f9e0cf6ab5f8b7eac987d57df3e55e1e419b37bd92f863070d14cf30b202ea50f293019d8ebb89b5755d5be677d7fe46121b750fa1980437f6aa2fda2a7"),
  (21381945, "" ++
    "ca5265a3f907f4baa32d046ffd3bb7c15a38048a510367bd954b1b0ffcbb62fd55336f45f8a72d65fad51586014cf635f016518946dd5eaab5d1959f59037332"),
  (21381946, "" ++
    "bca45512f4c79894900be0ecc054911473d96247c530f8b6e74cee16b369f656ee97dbc5ab2d69f0595d300fd7c7bd97762dda5f5fbfa5ff1f17149a3fc7e3a1"),
  (21381947, "" ++
    "fe9b12201da97c80201b1524bdda4fa56d7b2368c4f01d27b93014c55de8d5aabcd0c8603a4a02c17b9c9faf6d07d6a1b1e92b97aba579c01a3b95885f372cda"),
  (15311228, "" ++
    "63da5270c49d89469324dcc403a53f55514ef5f0c245213f5b5ae839ac4e5a47051394f8d5704e12fae7bac01add11c2927282589442adc0eaa745053084a224"),
  (15311229, "" ++
    "64ebc980330c957d6748fdcb397b57cd678c179b8c299171b359ea866cc9dbcb8a905f91831dc9f0d66b5fbe10987c5a0d423c78c1ba518318860a740b9806d3"),
  (15311230, "" ++
    "e40b5decf8fdb0c21dd5ca7d2029a8579a15f3feb5ec93d6e584bdcef577e0be7f2c1a6777db96fa5a9833fc024c307a33fac64fe9b7a39c2d6e9f398db58131"),
  (15311231, "" ++
    "fa4ad059984ff22f38ddc4dd51ef29aae9a4aec786d18744030b72120b8815d7708c910428470f0862fdaad9300ec861d0315f98405835c4dc56702a43ca2736"),
  (1312704, "" ++
    "91277cb9a18dbfcf972b2205b9027a3d961437aa5c5f97c28937199d21a2e02016e49460599c8e3a0be563fd7b25b5ac740ecf8210c72c06272d8a73b0be34b0"),
  (1312705, "" ++
    "9ea73898e64043d5b8186fb401ec5a114a804a1a81d8c3849d0b28c87f21b6869f109168724f80e2b78327a3ccc9fe9cfb417250b63a1f7d73d2ea42f4c368b9"),
  (1312706, "" ++
    "1e2baf50b8e7c23ae02d5f8cee54c3c68b15178f061dd10cc465a73aa87aac1676f42fa9dd7714d98e4ac43c54398f7f653ab7f8d4712f5e7d37fd46bd5cd22c"),
  (1312707, "" ++
    "d28fd67260f750e9b2b378ed1295d39d4ac85b3335ecce72776436d2777f6f01319d7c7aadada42a660197147fde542bb1fab22265ff493948e4f72a5deed9d1"),
  (36621836, "" ++
    "62311f821b038b89b12e5de9de06b123b2431915478c9dac73c5e85b569ff570e3b20cfc311d7b4cdbcb1261869ab17d08a7d0c41ec73ac2f7f8428b26902035"),
  (36621837, "" ++
    "ff0ae9060132723e659894470a144f2324700b4bb55a9ca54d19063b55b618c9241bb3ab5209481435132c305524ae488e1f8bd335683794e98ce72d2e734b9c"),
  (36621838, "" ++
    "bc3032ae53ce15bad5270f3654de97206a6df87dfefbdceefbffca69bf276b6ecc127b6fa2ac6bb19b2fe263c19e129358082b196181abb0e59daa2b450d216c"),
  (36621839, "" ++
    "23c22ae4d96be98cdaa59d1d6b4834738ca231d6b27d24ad934e53cfac68d62ec263251b5e5c18395d6eaf8a0e4c1accbf5069437f756290d6ddf6daa07b0d5b"),
  (15940340, "" ++
    "c839e26586414dd1f1a7403cb627adec976264463a91e697565dfed9b7731a04e3374507928646e69df22a1c5105d3869eace230f3256f4ea14cffe7a987e366"),
  (15940341, "" ++
    "3fccd4bf8761cc7c469752347cc4eea1db8ad807e7ebed9faaff35d45684e5f55c11db1b6b2addbc1d876925403702fa8ca07d20a8338aaec4949fc40edb6900"),
  (15940342, "" ++
    "7eacde157d50ae13aee276467f9f92e5397390e5df04568f0aadb14dcbac917c2a6f9530d84aba5cf8f15b5c7687e251033f5176ae99b6369b4864d5554e9a55"),
  (15940343, "" ++
    "5965657eec2f8f21fc5bb4892aad836a63f89aa30d9a0a5de6683dfb13cb95857c6e8b83995402f6374be3f437d6344ddc2372c27e3b4160892224af0a748ab0"),
  (62950764, "" ++
    "27cbea4401e5b1f020b57192ba6d3b1a9ad676d1fd5cf213dabdcd2d24ea31040925af62402baf989c818a48c18ba9297653ef5ade0b764eb098324c584d2a20"),
  (62950765, "" ++
    "3e403642fdf3ce8ca2868f44955d33ff902d4acdf363d16c4d3b0f3e356ab2db4a025e1f2a4cd3b42ff0582a37fee601366b1b687cd0822f6332af3cfb0d758a"),
  (62950766, "" ++
    "13beb12802f3e854a4040991b804bf8d1a33954dbb851cb34167ff827a62850f2fa72cdc9b10d8a16a2a4983fb92bf483b7d88213353c247059e379745cdbe04"),
  (62950767, "" ++
    "ef3a90adeaf7f3ca6d8ccace313a1ad5489842cb056448e70135f4927b68012962ccfb0898f3be31ce6e574ad614eb0e15af59a45af21118f8bb9d0decc7b613"),
  (13117640, "" ++
    "632b644b4c2df022b00ad92011d525793e57947267692b27942eb5d324d8fba541c1cb2514bacd0fb5ba49d3c43737c94828c61ddfe79d30db703afacdb32552"),
  (13117641, "" ++
    "79fdb01ed6152aeecd1f62cc525f11fb0514a4caf0a0306bd0dd2c479b1cfb349cff4709a30f562fac40a4172d53a489879dd53164ff1efaaaa771f800ade789"),
  (13117642, "" ++
    "563b061b9554a3e67c563da2a8cf47ae085ae1c8a3ac75a27cf6f834e83eaf914f52e04caf3d8b59f9ffcaa8c3d18439987f784bea325cbc2c796bb6cb3df407"),
  (13117643, "" ++
    "6bd1839eb0f5f479e3213df1fee16632fa08567a3783b99a126870c48ee916f6950ac24af624fe79bf2539ca203b2263e1ab96ff747f978f84c48a59b686f895"),
  (21464024, "" ++
    "327b003d075dc48765ea3953830b8ed38a675f5777af26b363a52da8128d8c478a5fbe8d63cbfff4977262eee729847d242a313a242d3f68d16f126a3be696a1"),
  (21464025, "" ++
    "c4f51900f7a79fe4b7ae4b334d5a5594c257f3c550f15a2c2fc329bf88f8e6da1bc7b3eac2b5b03ccebc6a2a9038a69230c4c0495008f640efcdfa7a18f39fe6"),
  (21464026, "" ++
    "57c832dbb065d2b74f059b52a66dbb0b3facfbdb08f92c2afa6900abb868d3631ce6faa96b8e03068e9e86d221c4c2a0200b3d421a7bc7fd64f5ea8422ab4ccf"),
  (21464027, "" ++
    "a2d5ed956f3a50cb63630b6adb6e01eb35dd2042d18627a0f9f0b7bcb0048768215a3641ac609bd425d5bae2706096941788450623f897138ad319ee935934f4"),
  (8697564, "" ++
    "59ee9930ba5fd40338d5b5ca9a69650ff3dc6c43d7f96ab0bff9b1e9aaa98b0f2275e8e61c38fa7e31865a6fae4371852a0387aaeda1f6afeaea8fb07dcffc81"),
  (8697565, "" ++
    "b7cb5be3152ce87b01119bb52a2aebf85e4500cb74bfc5ca2e4a59baa0daa85a1740bcbd76ea7337eac9365052b376f3f4ed589008a999819b052a61f03f1864"),
  (8697566, "" ++
    "633cb1ecd4527079d1d35e84e0659021f827d561d9e94aced59e04b1296fa31dec8e356d5af672ff5586c992ddb5a63245f55a87fdc4d8193e5503ebb5040c54"),
  (8697567, "" ++
    "f0da72cff2284639a6dd52dd9cc5bbbe708d22dd555e2c3036ec968036276cded589e5478ae5556c44503d14941c7d51e27caa1ee88b459940130ec9f2b24aa5"),
  (47872000, "" ++
    "df8334c701d266382cbabb1c511308209fdc5c159073900095741f2c79bef01723eb719d575cd0f3bd3bc8b7624e7b5fc0c4a1e8c85151332dcd764568fdc2ed"),
  (47872001, "" ++
    "ab8552e548f6f2b5eb5eb09b1ea64a1cc9405e17030326e05d66015f72615879c7a74694fdc2daa82631c8f844e92f66052f34a4d2b7c3943eb923b7bf929957"),
  (47872002, "" ++
    "eb0321305c1b9215ff97489218c49ccb250c6f5889a20181e3034aa8a9fb8d3f62c1deb0737f1197f95219a0dcfbba948c106e1e62ed4ebb5b0e109330f31fff"),
  (47872003, "" ++
    "8b014c954cd9a236e9c8bf8d0d4ca9e6e197bb98f5054bc8577aa948389b5047d5a16b743764d9f4129818fc9cfea040baba6b6a2b60aba11f350fe8ade1649e"),
  (28139332, "" ++
    "de33ccaee2814d1b5827ba21b2cabb7c2f20ab278049d2bd2cc2e840573a69cb3cc861ba6d3ecfa1d32f576d206d9adfa04f3a371a039effb91c751185f336a8"),
  (28139333, "" ++
    "f3e0c6e118190bb8dd11b5f1259ef972e617788d1f07c85f81ac9f1a521e3dc2d880ac3ab687669a61e2be35ed5e219f85acb8f51882dee56114c6b074430398"),
  (28139334, "" ++
    "322e3c6b7da1890c54f6061376c8b4bc7956a0b2f316620d0456e5e02c1a8a5f1f881b443c6b8b01ec116725326762b07bb35fefb83ef80e54bb27e2882bee87"),
  (28139335, "" ++
    "d19bd536efdd1c1c3124a61df80971e82442cdcdd9026f85c700c1f5a63198342971b49ca7217bf7030c118b0fe5607efa15083f4ea1d93c257e7e2bc4e42485"),
  (27777424, "" ++
    "27162d8ecaaacb4c64826f8625df549c890d94327cfae70718ae9dadcbe340ccaa74f0d3215a0035f1ae5880b5fc2ea7fd040160d2506ac84d500913604e82d2"),
  (27777425, "" ++
    "a5104c0590140df97903c781b1a689d888e000228c1dfdf6a5237ad560b09259f015cea98908a5e7bfb52d260d58a574fcc1e70fd9dd6db14e9579c02d13a703"),
  (27777426, "" ++
    "a39d994f07cddb9dd43b1666160764963a44c6eef4df7b28e98f8d84c755dd66ba81ff7a05f156f3f03789fd25fb77e22dced0dd3fb8a32ccad3fa5dbab35b82"),
  (27777427, "" ++
    "3fe59e009009e07662cd0e6cce996af07be934174ad971cf3b86bc1f97870779ed21cfdc8299e4ccf3fa12097c3e95ae717c0cfef979ee4a7354d3b51ef6b457"),
  (2669236, "" ++
    "4d0299e1ccbdabf246d6022f87a606279c78f18b664339abee30444135aed04b99568f60d694f7f58aa6e326aa44b980cd2a657c41d243a14ad8848cec057561"),
  (2669237, "" ++
    "e7580bcb47df08691f02cda16f6f783dc8953309786efdf19c79b578bf71c7cbb43fa678fd3671e2f1dcc0747597e43f2ddf41d589f61819f6e10a9d9b8bd57e"),
  (2669238, "" ++
    "69d95692f493e87a96420340f9f0a1fa83749a61650bbf102053dd673dce4b806daa47a1eb54226457f401e02ee06b15842317ba489218dcdc3f115465c302ef"),
  (2669239, "" ++
    "e692a73573376384b983c3a60c77ad695c8b97c5ef1b8f3465b57bd6d83fe3e2e378e1314276bb45a2710edcc4a44dffea7a05fef92a414357dd16b1fb2cb0bc"),
  (7499044, "" ++
    "f584522b52029653c67e7d29664719e28c6d7e29f4df32505a99ecd2aef7c3286320f1984a3a5d5dbef95437b7464a83164ee1e6551cc7745e8049de96d79f8c"),
  (7499045, "" ++
    "c5db8dff1ef57932eaa6dc4f64f796e4fafa2e4bc299575b0668cb88ca069b92cdce55870f511481850bb890512ae5deedadcec9f7270be318957a79e95e8ecd"),
  (7499046, "" ++
    "e29c74d5560abbc41028cd89385d19f5b4d30743afd2b8bdd1f05412670c2ee4e3e9ca5c45fc17ce80e22382eca8b6219fd7dcbd46c88db4f17a8d4a91d0e0d6"),
  (7499047, "" ++
    "7627b54b3422a2eae581b5c1584e83a40efa19a284122da45cfdb8f36a4c75a272597006570bc9dd9c430f473081f4ce1ed7711536c6a67a2c98e8843d3b45de"),
  (8430612, "" ++
    "e3fd1ac8cf43d12f7b256fd0ac93467584befa1448c03087120fd88d2517a7f4c3e80d734d10e625208e726667a1dcdd8eed5f122c484a96c0007fa7829bcb11"),
  (8430613, "" ++
    "e736efcbd3562a997b83dfe43227b6648412c061bfbef7c518f4954a6306696310bf38cf2c37e36ff73b29aefe3344d47a7600afd6e02d2a33904a0a7f62768a"),
  (8430614, "" ++
    "17ab5dd1f3f9f25ec0aa9468f57c8944b6f783415385b41a266098a11597e1704af06037b675b88fcaa7ab2d8cc351633f10189689cc4025b09b96bd9088b961"),
  (8430615, "" ++
    "a58f8fee2b7854b4dbc33702f1d3b55e5857d7a9f3f7cf10c601fc803266f8ec1b93548fe82f1cc0e01742d6dff47f88c41f81e0e2a6aa9feb9a1a21a2520527"),
  (53424736, "" ++
    "867258faaf49171735fce5748974311b2dce78859d34065a1f4b0d189420aba2e8de516b7f05229a6a7a3ee263ec9f6f1f4262fec124088e04a84d19ad2c4d39"),
  (53424737, "" ++
    "27c44180159f2ed6b58ec50e3d6adeb921924d48c6d29f66e54175157ac8b6063fd8e4a7e301deb6d2b4e7708f35d3875bd10855bf639e7589a86d9cf9d93e1e"),
  (53424738, "" ++
    "c1753b19b2b6b06d65c0a0a4e6740c543bed2feb10d6a807c3cc5ab10719a20e4d493780a0c0d4e25aa642002fd1d4871736ec624fd662299e8fdddd0a1969b8"),
  (53424739, "" ++
    "1c64eff32c07307ce3b41f2abfc5c1c2a1573552367970fe07f482d77d66bed6a77475abbc2bf4fce06953c48a32ae6fd17cd3ab09919fca39407ee2988c8a50")]

def lookup (i : U32) : Go (List U32) :=
  match items.find? fun e => e.1 == i with
  | some e => .ok (Dag.wordView (hex e.2))
  | none => .error (.panic .index)

#guard match octopus keccakPrims 65 (hex "4d99d0b41c7eb0dd1a801c35aae2df28ae6b53bc7743f0818a34b6ec97f5b4ae") 151182848800 4294966528 lookup with
  | .ok r => r == hex "d45c965d3707e27a42995132637854234385cbf5626897259f1ee980554ddd5c"
  | .error _ => false

end Verif.Test.OctopusHash
