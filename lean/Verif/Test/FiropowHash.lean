import Verif.Model.Generate
import Verif.Model.Kawpow
import Verif.Test.Sponge

/-! # Conformance test: FiroPoW on the first vector of /repo/firopow/firopow_test.go:18-24

The dataset items and the L1 cache come from the independent program tools/ref/ref.c; the expected values are those of /repo. A lookup of any other
index fails. -/

set_option autoImplicit false

namespace Verif.Test.FiropowHash

open Verif Go Verif.Progpow

def l1 : List U32 := Dag.wordView (hex ("" ++
  "d3549494dd56ac194300f47811cf82b84a4c9cd527284fb45d5e0a30990cacf5513b4e8ab69c51e01b4bf83b625842584f108d9a3031e99a093e15b55cc82aa4" ++
  "1023efaa42d6a08b0090e11b9bb9a90e737f710abc675970e298c1bc7a8eedde3f4e1fe7e64af85d306dac66502a955ca376fce7ee9b5ab047a7fa0f236ccf33" ++
  "068c2d96aaa196238e3f08850a4cdd1f0620384976daf57a8375b12cdd77f5f6d39e7686160c8da7a3aa01446e4812bd96d607a92776495df4b557bfe9304c60" ++
  "280081d686ca42d14ee16f25a2846b8254965b204190f4c76de3cb92bc21d0818b22e923d6bd9f66b253da6e1a30ca5b077beeb9abc5b5a6b0f42c1c2c3e1946" ++
  "da259423ebc371149664de0ef79917a82cf242b0b76026bd58a2ecd9fe2f5c095974040d7145a783764cbf82ecacf8b41f63ca0d7b886c56792cdb035a75a087" ++
  "49c6760fddede93c6f99b092768085692f09f4aec28cca9301ba8efd6c0980a3a286a52f5b140fe942e1a96a55857331d555fcf98e02f207756fedcf47435df6" ++
  "6144f0b8c29bd3465892c024e305f92fbc0ec0779642d04092d2514fc17fe8b8ad1f80d30458f23ec180322f6a5d5c676ead6aa32212d1ae81643d9f4185d9e1" ++
  "2f1d45000259e893f841cb3e22e5a816ca32af9bbe9736514c1031880c23ed887c7dfeb718019af8c15d1fabfa5e78be738ccf04b0565a835b66e40c7498b348" ++
  "4f5b0fddf081f451ae72940a10fb77b9c173f285eb61554206565ac16891b768894d7411cc30591c74b622a7219c25530440d11b3c4f7e6970407102c45fa1ac" ++
  "3afc3659cb48bd45008264ab4c5b198cf2cc59d8bd65d2cf9612156b0d86207e5d51cc21074b771439a6aa1ce70a7d00f8449086cda4281cd754aad134c78955" ++
  "5a4a9471954c8408128c16f9e6d821b78cd3185a627d5372e83711f17ad55c8ba9db8022bd7df53059daea9a6fa7f677d8bc873ec7d3378e25cef466ee8b3c08" ++
  "6bc04afc63459c2e5fda1ef3a8bb91a7c5574d7e9bf987f6b5a0e353be174095024d74095aaee7b9a8906154c5efed4a5104a4dfa9961b5ee4a6e0b0952b5e6c" ++
  "61a9fe0fd57fb47e1c106beb0ff0095d3eeb72d2fa6a7921c25d58420344f42c473dc9aea2c5f496c7a82b75a10eb22c3ceaa57e13422c6105eddc2b4ec70b89" ++
  "371a475631799fde9e97c2595ffccc939b9a86d58768650e2f18f2a0024258df3ceb02f395e72cc5a27e377e7288d0ae410b122efc96428874cab19818897979" ++
  "31c6a3eb39c052a42b3e27fd293edd646cf1d8a9087b775bb607c5ab54421fa0c1e028b5db9df301e2e5b82472a99b3eed3d406776d5c6f39ee2b0bacff679cb" ++
  "010a639d7cfd7229a71282e261a846e8a8822df7950a7e88155bd9bf03d74fa311518a6cd77ff1f0ccc2860f2b057609ec10de3c6f6936dac926170057842dea" ++
  "e276e17e84c9362eed46993b9931e73316b0e0a8e7affe77dbab39285bbdf1b6403068429f727901dae496448def28478dceccd018a4732e7585f60945f33f8f" ++
  "3d7582fd01464a7f3d65d9fa426d32ec033d8be7b4c80d0c3127121f87ae7ac0a92a16c1533680a964b9317ead79ddc0df9a8e428c2203b0bf4eeab5462921ae" ++
  "150e42b6322a6f79a722a8846a409de7768fa1c109c2e35973f19a363c1f2a448b980d6ffa8ae7749754f6398cc3f3ba0177bf49d00cdcbb126c4a61d597209a" ++
  "e0a8381ccda138c26a434450578eeb5d98189e588d360208827007e4a6495d36a03d46a86bf84b11a63e68b9d48d1262a994c4469bfa648dcfa82ba492fe1f99" ++
  "6d95505c0322166f1e2bbc0aa70450057155a0388361780cc87cae9c6e3f419dec019911b46c44a8d174fd037901c0e8b03ccac09063ba612a5d628287acd390" ++
  "b296c28eff7ecdea1116f95ccde5d72cd0329396e47cf7d22daaa574a554f940162bed9a2ae58ab1897352ebf1dd14f3914c74925c527eb495b5f1f6db633ffb" ++
  "ab8f30bab59a62f38feb35779496aefb7566335ef5c7c4b4a4bfaa8af71984ec6f920abe60ea05087d3461a68ec08184fa7ab34bfdb685fdbc098e8f83a93230" ++
  "2f02fdf37a3719f351acba8f67c15d7b3b1d33464a4328ea16fb0bf7928e323a87cd2a06004c2a01a44e0727f77b7b11709dc1335ff7eb093293cb9310516c8a" ++
  "c167ab913fb013a689330b50d3162bccb543abdd6995cd8e9635c24cdad7870b38517e47f57e034d1dc56f5fe8033bcd6b83f0b5e13c8fce154b0419a4d66321" ++
  "6d7f556c36d27819d657bd91cdad320059770c9d36d2f6a7c111fd795f86b0e3e2db772637b5e42bab23665daf0e10407c3d45b4af4230d24f8ccee4fe45b166" ++
  "a0298909f2b30473212db49d7e0aa0fbbacbba2ca02e90d3ccbe040c562600e92eafe4984fd4b4cd73c9258bb498dae0eb047b06edb94403d3321dd6f6158b32" ++
  "6755575f82c4e1a881f3d1144b4f79c86df64e05511e29423363c49d0d509f51fd6617d04e70dac60393535101f2020e59cdf5e366c9c0fb109bd6b8a87550f8" ++
  "51c1c53b293ec0d7b8294ba125a06ecca522d022268fbad0046685b2b71d3ba853ac77a3bf76c3b0a54e4d761847366b57271bb6b048cfd07e29ff74e6c63e73" ++
  "38408c3dde410196d328cf39f9bf377730e5e9f1d29c866f2393839daf9c7a07f61c0ef9cb201f530a74dc8df8b73066a248557333027d6275c55444360e32aa" ++
  "106687df87cd084cb9b1b7c171d1da268a9d4bc87537dc4ac8342d7a75ec4d6c7d93fe57162200c93ab0d8c235062861b10d96f72e7f738592d8736a1b79e201" ++
  "95964c2f64cf352044ae071ab8ff99125437adab7228f5d1155f320a2845afd07f4767e5133a684ef950c02de891bcc8d678a01fae08f58744b5a0b3a0777807" ++
  "e7e0c1086cee8ef57f4a0bff9f2b9c65a5cf9cd76b7c4126fa337c5cde9ff3f2a8feea81925b0dd8b71b0ef54aa8dbade7f156928202bd55fd8b8fafad0ade8b" ++
  "ce7c4e2cacde8a873d999dd8039bad9e2102a23fc2572d6c7116e0543e41d5abe3e66109bc56add9433613ee615a25b8a79979acc693598e4f29bfe30cc8813a" ++
  "72bd3a9db89e65be5b548d4d1cebc526174d05427675ff21b39efc89d6f3c6619aea8a8559f5e926a1f0203f142836ed3ee026e4b9e41dd2d667bb063012cf76" ++
  "b47f52fd7b54f7e82367a94ae78e2b82769a470d6a6e0838586169f8588bf2224f5a64a6ef0fa636190784f777506afd361bab3efa954dc84d7708f2375d74ad" ++
  "a47c2eb92716921777707399ee73b07af638a4ec8c84924c4f453d137a3a693c3cd96bc0f51fa79016877e4666f0290ece5bb2e406d91c745fcf91bd7f137883" ++
  "9a1bba5b1c837e0a39cec56522283cbe4502af00e89eb60a4870ccf977422aa4a9826a4bf701089f8752367436f769bbbfb4c1c3a697c0027cfaf257103d501f" ++
  "5ed41f39a2bf97ee484e243c7f9b157e03b1834ffb85855d84a9af8c01590f0212b5e785e8b09fbd26bcb544e172cff20bbe56a4f86d906704422ef1e5b8ed42" ++
  "013b50c6f44bc80c9c621973a6771d7818f19abc258510401141839ad9f80831973c345cf13a3dbb93a9faff32175f5d99c2ab18be9fabf0093f442dce199a71" ++
  "0b1d5c83f089e4241503e8a92b1861c070aa622ebea8cdaee9075adf9ccf090f69192d216bc6a33d4fb7305ddea02fed7f7d9c85cb6a2e34c6be8dcc98f94c72" ++
  "86f2506dc781c1bbaae8d893091b09d8e3dbf2990a0bb2cf1fa5767b525268762d9a40fa137e37a6db65c0cf92cc0c788a3cc7d5aef5214e9b6075369e740213" ++
  "4ec1422b9e9e1a19837e763dfb5d939f4796232225cc953eaf983bfc395b433fea69deccb19370f06dfc2295da84d124d5c6472e710c9de3ddf2c7d553781086" ++
  "76e0a732ecf4102e0d91511a21339fae8f0e9cc554738c0d6084d393d704d28d5fec7af2a41e6742a757d7898ba422343727aa3c38c33b109dba6e78dff0f35c" ++
  "c265172ff519535c947e2b42b1bf58b495e7d71f14e368d75c3228e464e225692b1486502bbdca7932b605ef7abddf4479dd8a18c4bfad164cb3907816e59729" ++
  "c198599f9e58aecd0af937b8abdda9dabe681ff8a2bf3081bb57e6a9bc54773d9cc7605a5bb0439c87e4c66894ea0671728868a47109cef4ba83ff56706aa6a0" ++
  "fbec28cf1dcdd4c14102cf8b1fe9a226bc325f317bb1773fa135c414e3d3625f2d252f45ae5b0f66fbd22e8d463f1e01abdc7663e2a2734fec9cda0780556900" ++
  "df3d46550fb4deabd908c3a6acdf718c8853e7575182389dfa52b6d88e7b19a86ed3618262b15f1d5774ceef32e4cbebd6cdcdbfe9ea700df22508b80a65e1d0" ++
  "3ed609f631d0f1a5126ccc990fbfd26a7a6b00ab946beabdc2fb856bf4e53573a5e7a08e3c4207c9955b762eb63d50ee984224558583d8724bf583518142d87c" ++
  "18941ffe0c911a23a3faaba5874246b7743bbc7b3174d0e18e4615fd4db5f41c6d0d3952dd1e8c9e6d56976c7a96af4217ff7254f665f5bc43ef43420695bf9c" ++
  "5183eb54ea3ee679bcb72664b100e8b7e515b147ccecc992c02a39a7b26b0ff9f3dacad14e21b7b111a4ba22c84f2c845f1739d7dba1f1756814f41314b2546a" ++
  "0fd0f550599ad28c9cd71cb44a24663901ec67c831e9f6221553f82380537a1308bc8dd0c00fe56a68dd133bd6d105081a9c05cc7ec0e9a3d88fc32598420038" ++
  "a827d5cacd36e7101e73d744e04b8c145cd2c5e77e3bd4550de3f01c11b04719163c0b5cd2df691dcca3095f937f2f2e3e09f33f5619c1d3fa02b1d9759f96c5" ++
  "8891c2766d290827b28a352797235b4eb18dae10c706f3511bf1f56cdfd52087b2ae0edaa2d9eff0138a067957b180af9d5baa8d6ccd0256bfdb352326d87947" ++
  "f7363d49f1133945df5c51f159ee830376be95e463e124b1acda82d35bac6faa1784de9783410a897a629c82e0a98b6c95744dec42872770cf45cbc22edbdc26" ++
  "27421e8a35a8ebc9803a8f70363399a20fbe6ba065c4b87ded5b4c6733146573296019488d26b06292248777f3e59b98af12425d049a8c8951f0a646b9a48fe6" ++
  "c19456f2730d10f6f1d02722ffbbca0fd32ad9b98984cde32b72853476ac4a29ba78f741b6d2577fd198ee99905facded746c96a77b8f2f3c575848a4315ec04" ++
  "fdb82b2fa4ce60daa1a52ed5b89c80d430d44c83fef25d82377f3db5fc7b47e9595c302d191f1e6a9e56b40f72ef6c01156d8c34b2374aebdb5e4cc28ffc14da" ++
  "994a652f5108de198cd1872b7c1622f8f9a63e93309dc743c66ddfb3b3e541d59d4996ed5e8ad9d1df2c1fe610eb38742b0ea404a847a4b19e08527a4ac6a041" ++
  "10a9483fa78bdc1d63a12c9ef189a41b756b2c39acf932652649979408b24ee233b69491e55df12395c80bc313e3d1597836d0df15462de6cda9cee06d65e3a9" ++
  "47f26d06761bf057f77f9f11311cf9320f816dc22b04fd64aebb13a96127a11d588a79994d0dc19fbc5064a3b7a61acc8d0d26313583cc1461d1d05d6f23a004" ++
  "817f800145c53d9aea535e11264269bdb29419bc03f6be9806b6aae4aa24e8784a1bca58573437270923e7a164b9c4a5129bb29b445a31bef081c457d7162440" ++
  "ad84d084ea73a4a36648eb3681ca3cc110be8e0181eb5369730c4837e95e56f384c92bfbe78ea4b71437bcd1e89c688b32460ea04b5fc74d90671f8ab8411ba0" ++
  "0167b2770c66dcde43d0f41768f24084b1ae33eedaa19e55c4e7692cdba116ee512ac69a03743de2e8139390532ac0776c8f9929e139371e40243d49e8c85f0c" ++
  "ea8fe87c49ad12757a333f8fa17b209d19a3951d3cb9989b57856f9172fa95b3a0d182519b7a349e5e14c50991d6ebd8a43a7a8ba522d048a87783512c3fa47f" ++
  "5791413bb2408840eb2420bc8625eeea4dcb603e18a1d143d75855bc36a662b42f8a062ed29a026607f5d054a918cc3311f4d18de3028e1a6be9bfdda5964359" ++
  "66876672b720ec80621ad54ec052b371ec15c98b2b84dca5fac2969583ec29f21e7976c8009d99cf2c6e6fa16c4010f2fbee737065213bdb98ade2e423aa3d23" ++
  "864c0e8ee6ae9d924a52594fee84b087909336c5bf57b930b467840e2912af3026ac4a005ef6fd341a085516614e2ed3a1d9ab092cc8d1911b9e6e6a7da4f8ae" ++
  "14d187fbf47146936e2712fe718c8b0c0fdc52c1869c615e81428e2de447648f8e599aac0088c91edab831f826006f680502dd7f255d5e4de36b57ef333b02b0" ++
  "0088c40097d19e2a13df09e24c3e313047644172d722e943e0bcdb46641aa29f80d042cd5f31136bd536efb948b5c67dc3c088ace4a9f57ee1e3fc22864de69a" ++
  "8af0d2d76a953799f496e0f9b19ab0263922ffbb3db52db09db8e8f51cfa91f2f3fd69ea49d9dabd7f324564ebdbde3dee04ec923b4c86f432bcdfdb69972a13" ++
  "c72d6ddc569cbf80a18fd15eec5dfa9ad74b0c67b48e3718efd3b1b3ea8c16c077afbb272b94d3540f45e68dd1086be4210ed1b2602cbef6c31d14296ea0ab57" ++
  "c461b5d82cb1b41db4bad2bceb7c67c91d15f1d3c3ad2c82cc3e102a8b3ea81728c87937a901d892867208d29b3b72a5d5983cd77e35b7ec10c6af63e64facc5" ++
  "f4d1a0703f818ae8be1bee6d3ce5c4e7fe88d68ad87c8a60e7265f4eefd5b0dd477aaa8d26b115e7c85361724c50dfb5e3389e08f6194c4c3f7138aa07c9000b" ++
  "e91dd1f2590571216b13be692c4bfd2d1c3efcb09decd1048134438b85a859e73b2c822e3d405d1a55c38d1b9de1b2605e737c806efc4b06644b4c01ca0750f1" ++
  "3cac99e5d569a7c422fc7cf466285da68003c4e640bbd8173979fe15ce24d20ebbb252d139b4626b83c4995fcac967b463872c9b8b57f30fcf84dce62bc8c5fb" ++
  "96f8e4fc571cc84dd0cd8d134aec25f24db0ca6ef15421bc1b2085c17ac662983df5a349e5027eae4e75573715dbd4ed917ab1e55793b618b07213521351dba8" ++
  "8873d88e4ddab0dd13748fbdc5ba43457c3e1a3383030f9c121fb408d91545ca16867d90dc3ad122bc7a7f078ba2c19417c1a5277a4d23b9edee7f2ed6403106" ++
  "d8fbd42712a426180d986fd0aa4795f38942e1dccb9b7a558b8e084392b240370c2b6dde37c87c839f0e8a0bd6ed3c5262f230dc39c75df54616a701f794f53b" ++
  "fb29b5d78ad6d10a373bb5893f067c1dfd0829ae0b8ec17299c3a9ea0189e3388be3989ab08d8ca37990726d2ac8945f4c375919e6d14702fce26dce7bc22080" ++
  "eb6c189d88467461da3b3ceb5db59590d63e603fce7834f0049ff36665ed21033d9a5ef9407252184de65ff6bb14c82f28f714420e68f0a2b770e0ded4a9fb59" ++
  "93278d748e855b87d3fb9f6c645e4ac612f96e313d5c3ef97f35f7269224681a1f5ac9a5ae43875b2eafc8f3c40a740e665647fbd37695ac865d21e2c6425926" ++
  "017fed036146b23f80b4f21b4e0919c2cfce344ff94fcf7760f0c108753a37e95939f5a87d4f05f3d004fc339c206109fd24b45093283a12b0f5bab0cacbaf2f" ++
  "4313167a69553d517582820fd82f2ebcebc4119512525df0ac4760c9d35674de06e94cf5309817b57a2517548fc3c3a5898fdb83211fb8b8618983ca38fe0d05" ++
  "eaf818f9b94aa742096c15f0d9c2707ffbe9f2a4f6e2a54ccbb833b90585f509a4c2d68bdec0472e4ccccbe44eac3d3e07948d259ebe9997b48a69ebfa5f0a43" ++
  "7bc118af2a6bc86e89cd4958865749786abb32bc442f6b0a1e4bd7881a3eb84429d3a7b0449f5000adcbf9bd01d89d58fec5bbe825f1179784ae139c955f7e28" ++
  "c295b93946fc6c40feb6cc38a6265bb7a376d4a426ae8587f9720458f29f84e56813e5439240cc9188d47bde9be7a74e9685d2f89fac279577aaa52c4826b853" ++
  "37263f07147d4acdf625762ab8776134860144a24f9296ad33e311d27e1be3393fbb75e6953f040f7b8e14bf6f0dcb11fed084e929a7ea0f04a6ef8c6f4b65a0" ++
  "ea91f2c9256b8d9847764c164f1f66fb87fd40aa33f8f057562b2999f032453333aab3733b4da29019696ba512f9d177e23f935ef43168086597e539244d114d" ++
  "6ab6f6d72f8880f7435969d97b3647c73cda50327681cf4bd7c216c32def0f1ba07c67a0a64089e26669c7d1d0c87ae65de56c07ca66feaf391b232894b8c5f6" ++
  "ab7ca4b1757d0ffc84d9513db4817afeed82870b30acc7052c2e60885a4599660420eb37f1a0496d8b7d6922382f769d2e78d5b91da55a9fbc9a162db7f49fb0" ++
  "20c7d03b2b41dbaa5286d754f763e857917ab8c88f57d3d66c0a6b3845a9747ed8b81bcb7a97950918f76a9657b78c2cfb5652f7a4ad4bbd49d44e09163df2de" ++
  "979793d0db3740b5863f7f89fd82f2b058f2068eb37ff983d7eaab940779efd7f18d8444ca7443b7d0d4eda0a920bb82b052737505773d51bf7a047d21587701" ++
  "59550d5449bd97258e01b66d48fae7e438b3539c11f9fe00f08c4fdec5a0b36c57d1e8ebd00fc2d60a09b3e3c31b4914b039f4b44c636552ad312bd0528c4e24" ++
  "33c5da8488ee7369b6a004a58f74dadd837b33184930d036471c59fb706d65f0274fa84fe154d456449d40e76b2c7f4d4f83bbae64b72c6eb01e86f3658cebf9" ++
  "08752c2e712f82804640eddba286df5ce0a7365b7f728dc107d4c1e262f7e1e01ff89861015fd380e3f846e8d26e2b6f08c48e103719a5631f33080a85be2b43" ++
  "88999c2127d7a4057fa4bf6e47b6134ed05c0ed914afc1c8b6ca7f7fd8111f0420e13d0fa564b16b32d8c032d8020b982043296deed09cb61f6f8e97389207bb" ++
  "18ff8803975267c39f17e3aeed3a8e7c0ecde3d0ec07c5ab525f1a4a76d50e8fc13042206f0defc5867280d263cc26c6b5dd801fcbdf5a4ee42d313a6f4d99d4" ++
  "0f07bb93775d8539a869c1f45d97f369e3eda6ad220475e3187caea1102199cc26c386ae4205be7f5f819b436e1d5c6e59ce2c3c341e091381ba82f2398f87a2" ++
  "bbdf19dd09b6b2c97875cae0907aefe5edbfff8f5e29c46847f52351860de6559dca8d764112903f6cbc218769c63a9af7dbd578e49f40fff08a8196ce5fa60c" ++
  "652d1e25d7e31b38344571f32e06317b409e92194a755d84db2e601d7c288c016abbad6a4ddf656bf268c89c8f8ec52ea347ef7ecb1dd0b9f83945553e68060e" ++
  "afdaaec2865bb6df0991ffa386df20218ebaef0234eb714acd7d7236b52d721de65057a8f4ddd8072cf256fca960d28a74099efb4195a9222d4f23bd69e9ec73" ++
  "60da90e786f843316a9fa304cc4b980f2d384c8a05618365d0c8a49d52b169934061c337c7769af7047940bd4c321cc7f932b08e09b2299b88c7ae9003510433" ++
  "f636df87997ee0ffd1989c58de99324f1d3686445d6db502a54781697caf4a279c071b04f9b5d31d32f4a98374d3c53ca241d0f778b5265994f8d5d472c802b1" ++
  "1bd69b1db99669cf048cf6a04966eea3729546b3e72030b72ce8e9db1d1f41849e3433800997f2e9d7db5d1ae99decd8b9c95580d30448040f520887f81fc5dc" ++
  "4073a073ab713d6fc44363dba80d4cd7d3e06ca3dbf8e58d628537efb8d5f006eaf852309d4949fe7121a3a086a72e2ac6afe1308aef99b8836ca14db810c21c" ++
  "8c09451f618f33a82a0909c1f7899231dd6051f2c972a5c7b305eab425e2ccf89d8798d356309eae1ff7f6da14206ca502f5332223a1cb57f635e84477bcbedd" ++
  "0b79313bd4e21f2e652fbda3ecc92bd68202f333d1f2d25ce83e065ae97d0082a8f1c921d825ed08c93aae063c15e36ebdfd773b59a67fe07027b4bb142a67bc" ++
  "e9abb8a23fd2374d6295d23cbd4f7d80d15cedf1a432e3379b103e68459b85a9a62e9735252f4d3e5f6a161541879539cea4452f9a85d0a925589b64043fad8d" ++
  "90c9fe04c5bde57b4c8420082f9a3b80e80a68ab5e1dce35be6bedf40420c5e3aabe1e1e488635adfa8a325bb1724517b550ebdc79db167dba985fa7c2ceeb4c" ++
  "18788d18fdc1356ab1a64b81ab0acf2d3f32d8dc8792e06e00c62309c056047db3bab4f4c0f221215744c8f3fb56b09e6d387d6fe37460bf6880db074bdd2004" ++
  "db3b94ec77552f7e15327d19fdd21b53ad0d7b00acf7e87da8b9804b8da0c84162c853c6817b09ccc7f45a10051952e87ca08edd3628bd5a851813e3c8650373" ++
  "7befa45d5c8838ccb9d4431807704fe27ef8d57c55559e53d9c91ca2af6afc9119b7ed98690e5cc1ca6f80ea2b18d89220dec73d191df05855fe62d967082751" ++
  "4193acaa1fde9309743eff6fdfd68e818f380105a7c684aca1e0644352ea5d2775352b13b134acdbc256362a09fd550667c2c0b0ac382e3e789811b529160b42" ++
  "7c1cf955f95f290ab9ffdf769ec83de17ac3f524803be70d0ce3bceceb21720a919b143d94b848b1019dac48f739038f3f1552353215d0297ddb4c11baa0b859" ++
  "dc7c673530b9ab0976817432ec3de909e7b66f0f9e3d2adeba64267886f9e85a1c9afd3f887eef6d4748afa6144973364dcf8cc2d7b1ded17d494d8fd2a48715" ++
  "f2b7a5a260eb18ba40b92b7e7b3f71b1b255a0da31cba3a5fa21aab15437087aee3e25b2d1af315255b7991a05cb2c3f34c8a25c4a0ba8f3c41e5ec2a71ee8c0" ++
  "d427361fa39d3dad0d42c936e099a3c52ef42b0f4740659ce6131d1a8d9ccc3f5b56654b152e7d05757373143738cbbd9f5f7b78763e366aea73826b8ad6522d" ++
  "259086830af9da2ed9d6d7809629264434fbc2bf6444e952bb631434a2fb273026dc32ae0968a5d48b40bd704c97537766246e213f120dd522e3259d1aa474a9" ++
  "91ad109c769ef5b7980b1bf4006aa1e9e39042d62b774157b418dce59c851e66a061983028692d8459ca07281f5440079fa30a84e40b68f205e5c19f12dad16b" ++
  "b5b2a8a71c7914351fe841bb48ba9b4ab1e47c6816e84aad32d30a77aa92527860d0f2e1fc90f47e868211516fb33f921bdd262e3a03025206ee913aa5c4ff0f" ++
  "94c856829cdd987ce7560645ab2ff5ac89e0da22db08698b1431e53cfa06ac2e13138c9572ad7054a20404719aa6c3bed8afff2f6fadd8a9b28f0f800fa04823" ++
  "9b12c0cac6495aa2331196e87f7988bee3d208af0e655a76f68cbcab2bf272bb1e704c11c59ffaf3b1ef37fd2fd750c9791210c756e334486786f5d04897198e" ++
  "a9cd88ad4a9ecf002b9629ee01534f95304fd24f3e728eba11fca6e34e62b92890ab511576e83f45bfd43fcaf571e3f49ccb44063856a382266ac5eaecc32566" ++
  "084f32e5f05ac56ea603e4106f41e8f9fd1a47d56b8a47dc8abbca34103f296826b3b104cddd0362cb922eef7616800ac6694f5d9518d7b333d0b90d48116109" ++
  "7a4e354c3d540670f0f63af22b73df5280d8acf91207bda5ac3f89b64eef4ac5e13cdf972c7f57ef13188c5d0ac20b32cea2096356ec0554c60aefde42f8fef1" ++
  "8d3556645c0020a6781b8bdb17140061a9141112e7fbc636dcc269e63f699cd59f003c360ea5b092ea556e13fcfc8eb7b95aa8a48b3b394cd1ccd663c5061c7b" ++
  "679cb73f675075754bbb9a8c1b2b08858fce88a838f7f6be2ff6b2fdf4148cb046f2c6cdd5284956d9788ae1c8bdfad27d8ccd65fa2f955668a3b4e83f1ad8f5" ++
  "70f16d54a4a2984286e708085917fb99efc235ce6ae4fef0212b44d9724411724cc0ecfae523100d314e7ec48d1233e4b7adcf6c26c01ace7dc6a1d34b772a1f" ++
  "27e5256aad1955c8f1b68ff7da4760e7d2cfc50891c025f8ed79d8568cdd23023de4f7e5289612bf3a943194db61e5a6f405aadc05d830bdc2c9b075595e4f23" ++
  "f4bd9e0b81d54877aff38b14fe8bb7172b2ba49f5bb804dc9599e439e4bfdf68425bb13cf62214de90aa3d0e857359f455b68531daeb36ffb0be5589936b38a1" ++
  "92f36bb0008de383e387788a78050f1019b8fa5a78b2fa042133f6aada578d42a71bdae91481873ba2f2441b5355cb6652c93475b20b1a824e81d39309467476" ++
  "3632dec96dc0866fb1109376e99763d5805ce4682d6983d32cdc16cf14af672ffdd624461ad72181d2048e1677796e99f5450182df1a48a31563b5eda49a7538" ++
  "828ebb95a9c288a4b8ed67fa3e33116494c50dcfe1aec11e586d531dfb5678b7c36356e6deb44a0f17f3e03ffc8a07e86875b6c17d148f4b68d01ca9470bad7f" ++
  "6a6a63158c46cd85c04249f609be5c5c00e7369d487155a67ee3efbbe2259ee3dcb32d9f07c3ea876606d3f6f9c4ccafa107132e97b6d77996522742f929f12a" ++
  "1a98890e4657f561d094e0d2078faaad0944d3a4f952a0923e572e2aa30272f223578b446b5d28a70b7f959b409e622b0839b6b534c74bc5641ecbbd83a9ed1b" ++
  "1cf4c8f82865a84b4e5512e6a895b6a6e35cfcdf95f8d2cbbc77d02591e4d5d7fa4f0fe49f0d17fb4fa45df55936bfff90e95ba17f91f44f0ab403611f0f74d8" ++
  "84b803cbe2efecd98546e189914cb714411ba1b9c45541f329f6b607466054778e1e81308a1fddd9189ff66ce8ddfbf0d2bd9c9890b149fb319a5d7632e5ed02" ++
  "2b7c7ba6ec9a5659c3abaad9eef4aad25fc9fb5857aa1a685974c67ee5cecec7418c2a313d9d7958ee8b5fd006e83c486e7ed6fbe9f7e261efcb3120263b0f4d" ++
  "9912c3a85843a14700f708a8e8eb0901f464e447ffaa8dd968eeab8906e9dbbcc8909bfab609a5652d38f4fc2e473e6b5be33622f5134a9535135da1d976c5dc" ++
  "9b241bab02a160c5cc19f6780fdf9e6081d9aab66acb74da28de861cdb15fd9e49bfa68029024ac09be6d961706f147df6497a0f0f9d8bf3a1aa7a9be2d59342" ++
  "3703c1dee6aba9e868693b12954e9f7b56ff2ea3fea1ca58a817fc261793d35348c9507d0fb4adcdff644315212f3fbee4066727f7de6935b250f572e18d511e" ++
  "5bbce412b8521343c976f1f7e44b2de1df185a5fad7289f1c12b06f1ff293e055b3e2e3735b32e9c140a87b4dff1d779d5310c24f408c23d8e5f765dbbe9c47f" ++
  "ea91f920ec0d7f0fa9e77e65e050aa237663135778b21afefeacebb58196b06924dfccb34c6bbeaec7d89aa2a0044bbf0a20429f41f062de6c1688b28700b053" ++
  "272e7254c69a932034e479bfbe55bdca5648aef17db9e0ee950de0772e89c1f8ccb411f9de2109b23dfcf7a53061a3053f8e0ce07a133e626bec7072aaa4b96b" ++
  "c6a39a89596313c07f53431a3f49518b7341241ab5142b14d9217b3898159e7c3a8a862ff68664ada2c2443ec4b7424afe762f76b95749cfe517b3770053f752" ++
  "ef55280374b07769155da4c5054cbfd25a46f760bb707364a3a47c5332f5a987abbea439432ee263f42b069c29f789d2c797fc5555e042e0fbe76c29cb992a79" ++
  "7e7474f5ad6a7a465805da8b4bcd4828a66f806be20d0669b33576e2e0c8f7af0a6367ea8c6985ca6de4a26e45868c3cbe1fc657bc8e7509523931f8d9494c91" ++
  "ee8677b9a83be6433250f49fdfc55f529054a4bc377cbb542fb3816c9adeedf3981b8a8459f31bed8a336c92dccce11a6bc8b84f6ba9a9b5bf2a02ace55fb5f0" ++
  "592b2cf5a76314ff1d36d4ef58d77da350f1a6bf8e5aa2d2d6f69fc1c01e71f974631ee93f122282a0f8b5370bd84d98da14f868242933f0d92b76c9b103b2bd" ++
  "86fe24f85419f9d19287d271c40fcdb50d425afdc4e51105c2181e08ba9d001c4b012e51a9778b9f86e59b693835ddceaadce3a4d74b17007eeb2cf55adb8853" ++
  "3dc45cca6629a468f1dd004ce4c4f16bc73ef1194e67506c3e263bd5d5f91d5d306c6d01eb3b8f5785cfdd19ce6b4722e9a96133773c507833e940e16f5e43dc" ++
  "e65147fd3e2c3849fb071ebae2c1d992659553bb9fbc8ac149944db86419aeb384e74a9819e90be8a5f8491a1d46346213ce333f69498305d16e9b3497829811" ++
  "6c979d94f916ef3f6fa78d402aeada5bb9ff530bf09618299fac77ff09826514fd6635aa356503380126b2ec65e62c78cc638c190a5398bb4b0b1c62f9508c6f" ++
  "c1d4ba99e9e56e3d77836225ac280b62c1beffa349c6c5ef062383e1c0bcd1f9e6b904c70b76e61a49802306ec95a73c88711d0798bf3550d9c34bc2eff8556d" ++
  "dc90ade0305861f9fd87c4cd593042a8eaa862d61eb481b2dfe728cb0ce8bc968ab258d74d2e916cbf8b66a7a77f9456a0de0f9cee1953c9f9fd3bd0fb53903d" ++
  "9e8d40efccbb408dcefdb0d11dea9021833f4dd351bd36bc54122811286f6de4068aace0d682c331ce65937e0c1360cb64f9a6067145356002b79375759abdca" ++
  "0935847083bc7be4c022f528cbc464bb1987c0902e8bd83e9e5b5fb42fa85204b0b61155d6439470c2c17784b2ff387b15b508826950cc49743565e97bb2fa40" ++
  "7cca3619d8375b987d3af828c6f8141077d41000a187ad845d40bd1eb1ec6b82a43d0f375109d2ffe312c8b500ff15aca774a1e1f3e577635cc3d996b0437cb3" ++
  "40307c1cf50da948ce9ffd5135140e4cac33445eccdfc1dc4a19ae933b736e72e15c6f6b8897130ce893f7739537b7deb5af9cf4e2bd0ac9d914df43cacd71ab" ++
  "d3c68e2cc7acfa028965cb27776f35e910db4d7cb6fa402bea84ee90586d224b50b31105cca5ebfdd7d084eaba689f45533295dc84bf04c7a8e962861a1caba3" ++
  "38d6a57ef256070625a42e8597609fad960a47635dabe265286fc5982018cc0b4e7b6cbae4098293904befa3948e45dfb7c58676594f24886f535cd1db3b127b" ++
  "fb7ae7103f8ee30f0a1c9e3ccbc5de1dfb66f7b8b29103e526d205e2146c405a2af8cb660a1156c140e02a6e0d1770212a895e143b0ec55b7881f3621444cf8c" ++
  "7c387ad7d4efbef43df13d452a66ef906b390076176e8879bb8a6a1ff3f5e5c4632150f02de23e5b309db1f2f7805f9e6560acf7796529e0824d82360234fef0" ++
  "edc4c13eea631de36fe51b336967a59751c4fc1fb6dcb09bc21a25006fd5f88b5d5452b797ad01de46760ed0f34a16774cef755170e71555e11dfd2bd4828378" ++
  "895df11bbe726ccbb396fd0b8355f9110580b6fbeb26bb06778f28c533efc25e3381a00d1af18c95379c841478049382a12d1fe7005172a0c7b5796fbe9c59c3" ++
  "6392b2c15e636131270f733021bc0443914f8f4ad70c1c0dd1a17e7ad0a83fae49e0b9b7619532512416e0630b27c3eda950967557d8b03c02b3bfedd5b11ba2" ++
  "fcd92b7cf12613155a511c98d4e7cd11aff04bb54129905ba8441fa064b4ae78c06aefd7edfafbb3ac9c76099fddbd3000d4814b9ebe88915ebd5b6e671a012e" ++
  "7c0009f880800023d794e1c71f136d05c803fc765acd5c65c71bc598319f4364aacc2ecbfbad330fc29bacc6c46616b1410707cc87412b1d9fe319bbb930b92e" ++
  "d4fe3ee11dfc4df096ee32c802293f42f3d1b62681e660201df7ffecccc4b4c5bf32e6605e6b0c64e70ff6bdbe4bdff5bfdf930e025da232467ca47d896c7fd6" ++
  "b41fd0c6c49223b3a12f6cdc0fc6a8b5140d6d4df594061d3ec9773cae3ae40cc27953dc8d40fa4401158ac5207d220727797e0375ef78f1e7c4233c625782a2" ++
  "2204f30f60d9ef8c211891eaf1560b5e54c68616f45e67965fa0f40197579c8307ba2b4c4e64aa4142ea53135ab71524caf0b5524eacb8614fea37010ee0caf0" ++
  "3e101fd376e98f2235893b54226b6ffbb00dc1b612e6d7cd56b815255d3b902bbbcc89f44de8ffc0509bb8f2b12d8e2b903ba10728891464c0cbcc32962cabcf" ++
  "93e452b228b7aa0f48d6d4cb7069cc5381c712e42de88c0bfec25d423e76844ce3fd850f7d012d031726972512ef9e29712779fc8d653658367af69e85792816" ++
  "f43ebc34b8db437b6927f5b3376f8a55a94acdcc5b12164235eeda726315e75ceb636561d0b5e24e304dcbb6030727d2cc7c3e4067bdcd6ee6ededcd1e243d80" ++
  "5b92c36cf6de25befb3516c26e97785559880e3bd919c269e2fb226528ecd682fe049c8252ca7d184d74401b4ceef6744224d717c522cdfbbbcae0680637b718" ++
  "7a52c452bc73fa2eb1e1c4b7524884114f22b1befb416974a1b62530224c6357fbee819bdad9bcaea93671d02835443de8e1343c85c5fc02fcea02395d16ab32" ++
  "7cf48436e63e56694c1f3c51c5ed937b117efdbe8fa323dbc162843577e81cd68795743ab0790f00dd5c0c615195aac112041c6dc439fc02d4f33dd3f8bdbda3" ++
  "864845ce8448016b15496da1541af8e00b0a4e5866e90d7f663018bb5b195a9dcf3488412c17c7a92c9dba621fc3e2565e892a29f442b29ff4dca2e4afda4839" ++
  "8335bc519b8470988ded06ad3bae313c75d70bd6e01ecfbf5018f98f6a8d0d81a1354b30ae904be2555d5447ac02389ccd127420e1208d229160468de06e5792" ++
  "4ac609c77c5a664744d614535b9fa0bb6ebf50ddda528d94ccf9fb5f47a880cc9b27dc0eaa9faf312ea1a9b8df6c2feb50558e4549935c6357a763457c0c1a71" ++
  "b9270a9c0a3a5ca7befc07595061fb35a32f6b8ac222e9f26144c77fa9a1cfee9722be5e93f94bd89b58b0c52c9eef3d94308b81c5708ec74039aa2878710c8d" ++
  "5b200708ea77455f230f2c849acbc9eb1b518bcdb082319b8f28d9a592c174b3083da518cf68ace66e786b494ab7bf4fdd3213f6b3c4d8bbd5daed5dfc43d0e5" ++
  "278027ef32cc3d528c4276ebc0fdb3d3d7c05cfe3c17f33ad290c8905decbe02920a358cee590d7107343f89353f4ff01f60b2bc42f92459bfceab0c41f332ee" ++
  "de6da8e67f968f09efdc5610ef7305e9a4fe52b8b5c5ec4edec3d0cfd3f36ff8a4254b72cc17077f3e1e2af767e7bac777b11d5993579d6430c3c2c6941acd31" ++
  "a938df2e5d3fbf4901a4d22df10069a1d99f84acb4c8317ccc0ed97544fc3f4a958495ece2eddd96306d280e03ce1d4ec5a4fb56b33b84e62b0593bc29bc44dd" ++
  "6612177a8d230aabf4b244d652d500ed7b62198ebeab70662f01e4c324777066b0e137e0f255fb4d13ed4a54a278c89e3584f47909935f1f66dd573c6445d28f" ++
  "0a885dfe7b1b339fa2f85846bd074348cb859337fc1f4659c47fbdbe5f0ed5da09d90617b6db2b114dc76dfc89af72246b764ab6df11e7e48ac77f7642ee9e22" ++
  "7dff062012feaf3041aaa46412b4cca5cdba169de7278e66b6b9076dcfbcbadf54cfd64f4101f84ce4772a19f5b95205ddd68c85c27aee33d98d301a3c6fa63f" ++
  "ba560433b51f55e3c8aa4075cda01b58f79a8d881c7f4ae4b59c49ed973f626c3afa55bc380af8ec350ca2214ec93f46b1de9e8a39410ea35e58f0753785dfb4" ++
  "b7551f9b76d622b9a17a969bc3f136dfc36c077d8a86d9f575eb35c550a4c03ecb99133be78d6812421bda9977f6875df070b6fcff9783877811eebf8feb673d" ++
  "f8778c252dc7e276fea5224ef5ba9a0b78c072acc9fabea007d8d83859d5077f4638c365a3179c67c784bbf59dfb524d5367430debe76514c3ffedcb2f389c61" ++
  "6e7dd3c65d7f63c7967d75e672242a9448077fc35e0939774161429090c86620f9a35b593d56db9e6782898a4276188d4610b56f7dd8d9ec8e274a53780b3d07" ++
  "562bd82450dfbcfc9976683ee0dd846641fd5b15101f5bba89176bd177c8a37b32bdfd87a23077703d32034fcb73e98c0e45455b79e202c201e511d8e6c2304f" ++
  "e59549741e3591efe32b9d88a81907d7e9495a9b917aba2523f004c79a19b8bf986b1d2f2d0d6e437b4bf3ad33e1beb2bf3f8709ee5a1bd54bf58f5fe5c78066" ++
  "fd2a0a4c539bccc102d8d856827901781d6bca7566c16a2dc76b44fd1832d31d79f7763cc61b4999927a15cb5b914b527bf5f5447f6c121e00c0b818b47c05b6" ++
  "1950bd23c418f18f8386a017756c9d55102143bebc524c8ed329bf7012ec0956d64588fb1dca514b69cc8dfef82e304708522e4c46259e6708527312c5674fa6" ++
  "577449b85984fff39a5d878972894671a53ab45587ec6f38a2437e92e7b2137b680a1d45e1b6a81e30ef9dbfbafcbb11bb09f0c8b5cc56bac509aac461dcc84a" ++
  "4009e50734ef8424a0e41350cb7ec6e8b3bbd44396c4178158da5a348f5a1865e258ad9d20a3dafa74487e1a70901fb2fca0d1aaa43922394aebae0b191650c5" ++
  "5e4f0a206f67d2e8d32255dc2fed5601112d36dcf538ab891cb21b563b003295f088d70eec134b3399c4d3dd142b4092a97e54133fa61199e29d4a72374bdfbe" ++
  "e7aa23f7d8468372ee281468620d7ba7b339a2cb15d920b36f748a9c4433cb4e9eed9cf3e6531b9d69ee162c6512091c5ccb9f107b42d7f1370d77c197ce08bf" ++
  "6a4bb3359b9645ddbd010fc648a80057b9658a5d17bdca925d980aa32ffa48f92736084ab5f4a3d17e8d8e69619683a9e15f1ab1be5e0e3fb54d1eb5ad6b94d0" ++
  "e1313d59df51218903e650ec431850cef26098e99868d52e946e32a98ef6eb715d13ec0274608bde27404906591cd9026d29dd9d7eda4fb89cecbabfab7f257b" ++
  "b9446fb3214a6dbf50590cdb97cabdc418fe4fe0ef4064b130076ef9709ebc261b04c4b42d6ca48e6ea7b6cf9d92b7a9a317deb632b2d6bf66e97c41f3a96a17" ++
  "1da5bef54aa6b192d26e40f932f35d7b2c7dcbe10348c44f5439b6fb6fdc76537a244b214de527e27981046cbf9d75a7dafae05703d6f95400783231fc191578" ++
  "550e31321e5ed3ed44f9101a354ab71cb1164d95bcceb0292e6a0a2953844e9b30227db546c7d320c3134451601c167175cb4ade0f803414f9a599e30afff310" ++
  "6036a4673f6a33eabb53246571f42d3ac486454ed3e8ac406b22e0a8e4a706ea9c7995562ebaaaa525ec87c13e86911c4c908bf4a8c7d3bb6154b148fd279de3" ++
  "dd72586cfeb8234da7d4812e634eb1b71b01ab59c48908e550b43f1c97d58ba4ffc69c736b138344612b87ea3e1946540bf34f563288458fc35ea02e5245eb25" ++
  "460b6540699543ccd022170ce194808a642c50235f78995b030289d09245aa1c55be38508b97a0eec071f69274753fa6f83ebaef146b6944f75f9ebfe9bacad5" ++
  "497c8144931d63095d278780a99f69e093b9b1858f0f2e550e43db99452df4becb5e65ab426c677585ab4aa0df424c07a8c2620d20a909bba8c32c8055764ca6" ++
  "8ccc8ba76c2caac6f6dc96da726f32a0ed499490baefda994ace694450e6d03c20eba4720972fe5e15f1acdc7e8228d1fd2844d9c0f8423356fdc3a797c2a06f" ++
  "419e3b601a0b393cdf1afb63465a688f02883275c14f9c2be59c66b2b28bb35055e30def80f326bff814d1ad288ce5fa140a8409e12eb911cbb9cdf32166ce88" ++
  "9215794013265eee7b7330260d42f325d7561b11d655b428845562648a2893e7d0a827b977cc542d047ef842525006fe14835ac1dc2b68ccef6e6d624a433254" ++
  "4d81fff801967ed41e0d3bc52183f88300ed678222b1871519a618e43e6ca9c7b89e269825ad1a66b9bdedda89c054ec9576aba2e87ad1fb053239772b437267" ++
  "8d2cb9d9aa25c197f836db361d1424bd8a49f2a9cfa0f5305c6252faaa141c126ef24fd3397e7c33d448ea772faaa174ba28fcecfa91b7dd9a11aa7ffcd8b50e" ++
  "4cf4acd45650a3df74a98db09c112949ced7ea8838a11e22120b87db65fe073eac6b89dea077fe123e19ecb0659c4e01649af6fed7c8130ea0ed2884f0bba327" ++
  "b8c907b7330b84284e619345e5e5860af5a154d805fa60077978021d0f865aa33084e594cef2b090d75338baccee8c0333bef7c06ded7b94bdce4db3e741f3d1" ++
  "44ce36bb27a0877ef0a5b00d17ef2333530b82cf1e84b16680c53edf7fcadebd9f45deebaf2220aa1a13c350f5722f2ec32da8340470682e968e06ba117a469a" ++
  "0919b137269b8df21d0288c4cd287dcd76ca5305938bfb1f6960ce09a28836d3c5b5a8174a7fb23ad64e6d023bbdc90d1d65667150f14738d6ea8eb528c22f94" ++
  "72783f90b47370c3b11d435bda4ea73d7656a35e16f1239a9eb4cd900d25103181da32d2d29a15051c35ab13969cad46e8626ae52e8057e896cde4834010b30a" ++
  "335e6873a9291c48b606b5767ee8de8218bfd48e719396b85d46102e6f4d881638ce0309c5aa862486ad7fefbaf188769d682c3a6bc80d03ce0123f1375cbce7" ++
  "dac3f1695b11f14a27b2cd540738a3180cb12eec178e9ea212b31f4ca1df882ddda1cef819a88530d26a8f77f296013b005cbbb64d1d6a7ad58c77f42ffa60a1" ++
  "f036056c6877a98e909920914753ef1f3c411ce0819e23a071e0775818d73190235ed9511325078dcb845579be7a64df233d4c75d1078ebe6ea529c0ea8b8f28" ++
  "f0880485b3d920bbeddaa11412851ec43b1ca673485ffbed63bd12c1bffc405f2e0b0f4724a04188fb8816612f53d79b381d57ec9695f000736f90a6108b2fee" ++
  "b88a913afca969dea48e7da2ef6033707e29f7218ed576347b04233569aed7c7b16aec9adeb16b33ec03efa31038953a1a3c58514fe4072ebac5b5f56db3ca5f" ++
  "f2e0c7d985edca24487b4ed0d0efb2d5068baf19f4202144c0bced70228421962f6f212994bfa4f1abc38b067b04f14e5cf489ac6105119f38ab292c469220d5" ++
  "8b0ece179c56df4499147f9600037981bbad07414d686c17ca3a54d8ebcf65af0b9e311c543946a77479170b7b6420ca83cd9def1c9ac966693657838a11c902" ++
  "9c01144cede00ef07a7de9a3d381fbb48d08b14933e00c71630a2747b06106fd18e1ed93b6fa2b5ebc42dc80779b5b534ffaab2ffaea9814220ccdb334c3065c" ++
  "a2f91d34a5290390cc81b2d6e722a12832acbc6a3a47f7782253fe455470d0091fcfe164e88a256de59244bfb21f0becb5b5d0daf4ec47a7caeaf8d0af3f3562" ++
  "a74c1f633272a095a003b099c81792599b23ff2db77138ec0f61d09f8993ee234e6c59150821b12c3b267d78e7ef1bfe9c1a837f413e9f2edb09a9627fc86596" ++
  "dda5ea7fcaa9e4254505952b09125b6663603797c1dc347d391cbc345892bae4af9e89d03189d09c485b30aae9ac5234988a81b5f8e71e4f7f32652a359a4287" ++
  "71c430d59fc13042a6a52dfd9abd0255ade4e32ed926c9f9d42bdee24bd4647cfe514afd2107197cf8b4782cd0e461e42e492c39088e9e31b0b5bbd9a441e393" ++
  "055a90de187f57f1f2e8b481383b7efef350011db0c5c0a3ce6407b070af80df6fd0dc41d15dacab59833aaed41c66a3dbd1553ddb87e7d450fa759dc5eee7dd" ++
  "5d66a6894bb4faeafd1a8cd20b8e253a844ff1c17f65bd9ba0863ec56bbf754985657dea8fdf99dd8798ed37c5e7153b93da4dc33628cbe59e5f2f22b948ac10" ++
  "127e39180f1eca7dfd485df0f5b9a6187c70ce8383264bb4f36f0ecf8d0bec5a1c358e0b709f9aefdca5f23c8d637bc947098ac718e88982dad0ea861affa9d5" ++
  "50313c7c029290f3879f6ae5eb073f38f19e7cdc05208f525fd1d37a48b754aa50e46ad444c044a5e0274811d2e71bb99b052134c2d96f5fd291527997b32b1f" ++
  "afb6854dc79045e8f7be9d88c890fa5af1ba9701fee252a71176fcd49885f710e4da64861d3edb40fdc75749d19b90067442a5d0442c867cbf8939514da9cc92" ++
  "d28b610d2efc285811444b871ee5464b0d4dda959462f56c32ea22cca8f4576b15a6a01224deac01ab4f499e0f7dceba77b4a9327dfa87043033ef2e1cc6c5ea" ++
  "fc50a0f3c47ea68ae9b020fde55b76b5f153ce060c262e8ae496702d8e88a386d8d4d85995dbccb4d7a50e31062d4511bc0ba8eb49f8f9ea36dd2d1245cd2206" ++
  "3ee6d167230bd67a19ab82869b450a601f18bc4b30d71452bb8c65a7210548772423ed046922c33b1a0af486cb6736794d2cd68e5fcb25bcd3deab582ce23ed9" ++
  "e5046572b41c9903a6211d11ea02d9e7f910146be405f0502fffd71116001d63d6651d7ed2b9f468e3967ff869b706e7da3e9f47b148b7ed2a02b556324f7922" ++
  "2830eb433fee460c0e49d20f8d41b8b1de6684c4c46845870863b3440d5d230b1b0cfea8708089c9244713b0015af948563b0a1210cbbb10c624ec063d92c807" ++
  "c11e3799ecfd170c3063e96d4d4f46cdcd2d39c84735f0f3ea2c1a5b8de686af8e5ab9b743999f6e34e86e480ad99df5fd4ca8cf036227aa899463858cd4dbaf" ++
  "fc05dfa7ce4b228701404a5aeff7325f55527a782b671989452b6ef3a414002b9f6cc0a9a8ef882c97a2f64bba608406d711961d0bca9aa53142a4880a53ca7f" ++
  "49d12512a9792d46bd832f93efe51c7c2e1461bc75ecf764536062a8429afd65a75b1baef5c79ebd84e9a77c455ef228f95cf3dbccd6c673f4584b9b6e34802b" ++
  "8d49d40cef8e5bc229e121c05120d1a53b0f10c62ca6f9441a38f94439767dd385abfd71c6207d345b70c78164f7fc13a6a64cc83c1da2ccb1f0169702a9022b" ++
  "4e48fa0e16033093ead091fb105787baafb357cad8ecae5656545621d36696d611daf2dc3c2ffa4e5f183a07fefc48e5a523eeef564060c554280e1d62157fee" ++
  "0f67970f6da59fc125c6d9a8ce57ca27dcb1460066d315e35250101e979b65164670c6afdee0510aa8698b3af610a6cad557572cefca6d4df40d6904bdf3bd92" ++
  "43645dfeb26d468aeabb05f2cc89f38aa1a38aa3b090d89e5d2098db6955a3020644ebc67edbe4652e4c18efcdd543fb0c3dd5c8d25dc506dcfcfc0c26fc6a7c" ++
  "46222f6e1e9fcaada0f410f549504d042a3978481d20b46107aa6278c21d47584a17afce11845b4902d59fcaa304fc42430e1f6a9b5eed11bafdc48db755581b" ++
  "c5003c0564be74f6f0aa4744bea6691b301db9e55c060732fd76cb8ce6eca224c1e22016358d33d36a984f385b31b4f5c17d6d5f7b1e817b28ca595bb29119a1" ++
  "77b370c44aa27f0e9010e90fa6bd20dc336f8f14cb2357b02d8f272fbdeac9cf6fa2aa6bd5e9722efb5784f9d432e8c968a8f6e6d72a35ef13ad22b67f70582c" ++
  "a8159c4b256d8c7162dac513161c226c6929eeea2354cb753267bbe02cd19d27cb1b1b403594f517441689f7d1dc6eebc092d2531ad83531f86a569a5662e6df" ++
  "6d14fa135cf50db648890ebfd125532aa8dce5a1f1da5bc65711eb56092e4d0b94face0d8c3514967ce7b1045d079992ca66ee4692a865fbd8c90de66d7a220f" ++
  "029dc3fa2bcf4ca02950e81a597225bb94186c2ac79fd4b4ef5f1fcf9e79c2e364d23e4dc75680b6bda5cb947a033602db433f4ce9013e9d656b36a86e40521a" ++
  "4371a7b891a1fe008d8ddc27179f2578f9ba74813c93960219190229828f805129cc05fd8ff50b6a750c52ceafe382f2ecb3e5d761d5f195905d0796431b5dd9"))

def items : List (U32 × String) := [
  (5491764, "" ++
    "38fc9db896d3bf11878a34d2c632c65448a2f23e3baa0dc78a710652da004f83fad37980fafe6d42c8b9203002959e7ce8bf6c1eb000ca7a078b3f7942655e46" ++
    "b0d4eee0cd226fac832a7662a664a6dc7a5f01318db098e95e8eafbbd98f3c24873e422a40ca7b3a97a64d36c639aaa0816200ff0e9475f37a6e664ef01e413d" ++
    "0e0d9ca76413c8a9afcd0e8d9dfc9302dead9b3d3315fd2c0b72ea018c33e3220b8947a3499f1afd513c8869d5494c12b04bf0a46e8279025d21e67973b3efa3" ++
    "4cc337e615c305a7dc1fb8c90996d2651e1641d80b77dc032d06ca7b6382ee9f2f88976108c2e02f948c1b2bc65c361beb66ca6c40dc03f5927b9f28a4996961"),
  (4108671, "" ++
    "5863a2b7b43ee783d02247d53c398c6066fc86b96449bcbb9d1b261c70b8db5c2ad8d59a7a82a998088839a29b718ee2fc1dfba719507aed8370fb3738d8c585" ++
    "ac62aa5515d1c5300b7d8008c1fc452ebb62d27057fb8c3b04b0efce07bb192c41047cdfc0ce5859db487b80e33b422e0eef21fad4dfbfed1d08aedea0f5ed39" ++
    "bcb6601fbdf59ca2cf03dbd1b3eb52da83fa6940c110c66a54c12ba75e257e8ecb99259358de4b6a8abb9e4994e08da65123515959df6645dc8e4dc92e9f1a2c" ++
    "63e62ac6c752ed2835ae0392619667ea4b19dd41f767383c593e015dee788252d050bca6cb54fa1ac4ff4b285809a101fa55b6fb3c999083782bcaa00de63590"),
  (3268745, "" ++
    "163f4993445b7fafdcd33278dc91e89d8452cf6985344efcb9ae2585912c4384f48f6c973fc5bab89d12c361b9c17d9f4d0851ea5ac9a25db6d84dfec6af4a9b" ++
    "4e80b2cf7786ec57f40bd6bbb0f42a87e8f6575df0738880e9d442a02429a48f6b588036c416d7054d1a719c4ea0a2d520ef3572172c2f2b26a10e9c69d18077" ++
    "73d4bb92a5fa62eab391421e85a263475a1d9d268c5ffc2da91374a03f14b441d057ad61718f166a65d9a76562025d4ea73f11ddfbc59a5411dc36ab41660e61" ++
    "b75b71def14d3220b634c4cd6281d7d0fd017b2bf66a9e6ee5da4fe4882b448165d2ec8b611d0bcde129babcb927469190ac9bbe42d3448f33b92e2237f58fe2"),
  (5549568, "" ++
    "d0a142ed2a24fc1f7dcbc5d0d11e588d25585a79c6187b04d767d70897fb3a4f9c0355b10aa84b57b7afe27aad20b68bab9570adec20c80d9d98a4957dfcd59b" ++
    "5f1da2a1f525b4f40309235c4bd4195028463ca0acb050f7e0e22710bc2e86bc17fa83bb8da5022a8fc34ff4c57395e33d3dc9e0fe2a1b3faaa54fb2493f7ca5" ++
    "ef28c7a7f2479f1a979c1ea6d47b1d38870b84236cb7a9e641045f86f3a8ebdc1e7769d967b432e54b1dea8daf558f7c1ad843a041ab8731a12c2fcffd6a7a9a" ++
    "31408a7e4afb59e615d931e43915b0e0c54a914279c1a25d67a29559ddbbb22c7a1ede5c5fabf8a1b4a536c42f1d346f8b9ecf329cc7396953adb616fe26d243"),
  (5145679, "" ++
    "665aff0d1eab6d2aff8be52a37ce4b230170e56b442ed4d2568e6a5acd7e8cee6e02cda1603f46bfdb4bae78a037b6d1b79a03612f4aed76024387855d93b010" ++
    "1a27e41b45baefda6ba9fd961983a23d0f7aaa0800dea423a48db9ffcc450408019ed88d701c7003037d549677488a929bc7be05658658c3dd2caf578dffe6ce" ++
    "c414d721cfd01380c7439db4803036b318555b01f6126639a20f927ef3ebc8b17dd466fff2f000d7264504ab139a638479ebf1400d2d763d3d885420038d32ee" ++
    "8d0e85a8f68e04b0cdd12ec9f06bc14453bc190247ba6bc1c9655e772dd62f571a5eef3bbbeb89d219ffdd9e4d10e0d0bbecb171233f4165f253003652d5a96d"),
  (2823616, "" ++
    "6eab82f897ffe85525c8b5b7bed7dcacb6e5a6c47ec555bde490b20b22919468e95a0b77f03972aff53187d9f80dbfdb09eebe264f16d8efb2d7cd6d24e5f92d" ++
    "2722f2d92a30a916b3adad5b1f5389734db1d6f3f0d6c9a56b2b9195eb5391763a84262c23bff56b67f2a07f2a4d23f4995042f5cbffc32d0d058a79b3b91c59" ++
    "b0b65dd7f0b4ed5ca1d761a6f38f7db73df3b6b0fd2d65b58e2e51e50833566273944716310eceeb1b189d251b59325ec7f4cf94ce19ccf08009b0f3bf92b69c" ++
    "d545a56bf1bcba3c386509c1b5689753634a70c23f8f5e481001abd9827d4f87cb7103f3712c8f4b41d08b2b7a201d09171a3fffd0d5cde247992348a54693fb"),
  (6027657, "" ++
    "1fcd018e647f7af5f6be001905f3ea5ba0adbccfef78b69867cfd1241a86c93d0805cc33271a83f15d0c6098ff54feb5a8a368d25576c93ba49d2022b35ef510" ++
    "c1c09aabde43096d34ba080bf2d392fb9797bd8bbc03cd6ba867a2660c1abdb21c51598613993dc61d44fab06955afcf71717b2ade2760f1c474dd92b8ef5314" ++
    "a44772bbd90a881930e038a51da8d3b56a4889264e5c283e09ba2ceaff0533c04d03c5c84cee72a3793a2b0409cbe853065c851c6ed36309d1701056c4591a4d" ++
    "4296a2009a8352ca88680146a0487478c454f1bcddf9e75b7679441f9a0c9e0820a2e80706f31f24bf1cad58f5ff9c7fbc8512e98d4b492f9bb232347058f73a"),
  (4492176, "" ++
    "e8a1399dbca2d4f068d9468df7697d0873fc710f445418157f5758520b8d198a2190369d5dced162fd50059268d0629fde25987cd516fe17361adedc97cee9eb" ++
    "90f27899961ff6c4298151b24e18a9ad14e04e7384dbc207dd4a11d376defb014dde6c5b4e8a7e06840244047ca2f06492ec1b91bb9f3157396c81c949e4263c" ++
    "675cf4e494e6d15483533e33a3071cb36170b12e1e942f2ed87a3e5a177cbea2bc97f42801449a2a6021f2f492cb17316b4656c2f2803a0d4c735281451facbb" ++
    "fbe090f2a4e9253f4e947b9d15906af8100bc2663213bf1a735cfd7d96d37fac7a15167cc6965261b0977dff51b7c522382bf8958091b85c4bf55dc783cf6adc"),
  (3874502, "" ++
    "295fb67bb096090f8f1c4bcce934cb432b13b9330fdbe263311d8c8c02a19b5eae6c0781eb1fbc0f40c4a705bec8168670e6a63f1b76f0748e6c3cc223280078" ++
    "efc6a86170095f79a7b2ddbfd8bbe35251de685b89b0d15f310d3fd4165ff22d4655fde5248e1c1b972aeaa2a39110d81eefb4972590bbd5d10e5540df64dd50" ++
    "c8bf185735d560ff292b21cf7c3773c823ae8e5c973ddaad8988af536436c367a50a69381e346d25ed392c7a3d88e8c76e666ddf0e4938a73f797846a1917331" ++
    "6435b77bcb2087ae113985dad3764a9b1c5c4c7ce5a0c8a7653ec0776b64354b502d860eacf902c1898a84a31463ca6cc11c5c3f36d054812407a6a098bf9119"),
  (270533, "" ++
    "6e7f7e6f2243be974708b8be050be531405c53f5a0f4d4e1bebb90b5d9095bec275905c6ca207eae792aca779174e6dd24d6d4fb99fff266ae84fb7412c2cf7f" ++
    "fdae14d92919d48ded67bf5b421389a48f2f44ed46cd392f60ce34e9c2653a569395fe75f7e63ccca07e84229236b09d65ea64c6b9d685263363d220b31019b6" ++
    "764e8921f6b15a79c26dccd3d5c470c10a53eeb18d0378d42b9eddf06ad97f97472b20469657885400cd4b849cbb8ed2a5ad6d936eaf3ec3b295bc1df63986c2" ++
    "126c4a25b39aaebf19b8bd6d9a0bb0a107dad9104120f299ee3fba5218c96d6576f67d6926181d32fd039bba8f0fe255cb94c75712f4f7374018e9447d7c3430"),
  (3007955, "" ++
    "b11f1f6fdb0b25401a89ae240e90e0d517bc2d4e2d1f729381dfbeffb12424353413c0140304d278dfb7bfc21136274821ff55df2be823ad26d903e9a24c12f5" ++
    "4be2c7759ee5330b95c38281026e6c6916a4bf20a9220bc876030d30df1c0441e9ba284f2cea5134a947a4742560d0de6b3b8fa9b21385df5d75a67ad5c48c8b" ++
    "10f5aa5eeff15daca0800ca46c50676f186e4a24719bbcb99e4bff090f7cf91ba9d0908c50c6b15bdeb00ab79be998bf0bc88e115cb0b30ae7477184fe320977" ++
    "148c0bdb60a0157c14c1a5d6ec1e1a8f6d5d6954fdb9de4b48a97ff637434436b44678f9be9357b5355b6f0f7b18d508b3108a4a57de0a7ce71d95689dc53867"),
  (6196785, "" ++
    "b92f9e1fafe27db9a1d64acdc78ac626bb0098e341a660a5966747ab32ea5ab706534f1bacf2863fcfd7cd3699bcf9c356db44c7e3474e7d73f88a3c4aac508a" ++
    "90f1d9340713a8ef31863f404d18bfe88c45f58ac2a6cfd865f0e1fd76363c7cd395490c8be685927023e1dc267c4dc024e32ef31f5bc137681c4ea177e4c314" ++
    "fcaa117d26794f93fa088315e71e06d500fd0939fdb988b5b1a5766c5b629eff25e4e7a612afd5c55a8c94e7f0295b5369f8c7ac7b192fc4ef37cc47e2f67113" ++
    "51b23e680d040e54bf6af9aaba9a5a55cb73add5db18c7345c8eff32605137360b55f7c15e2b02c90e8b069bf5c1bae1fd5359d892ad719cf4406c09694f4d1f"),
  (367333, "" ++
    "e7604e87cd2b698eebaaf0e1c7b3113d62630507bbbeb050eb2b7d7a0cccde11faea9daee25d16a00d765d588f90e28d1e5d59456f63e2cf89cd00c844e2c0f3" ++
    "65896a2d661a84f5d9abed930622592da8180e32c3f7476a5ae5a23a9a7f40d37a05908804a0c69d7a3c95d809134616c75f04357c4eeeddb5918cf33c483d2d" ++
    "c4c2dd2060a6b67625aa5c24e95a76af0cd4c452a683cedfd07c5671f087215156092b8a95c268f97faeb6343b7b5ee3aa976925829bef342363797288bce9d5" ++
    "891a55dc6358e37a62f46b323fb5c5182961879c4fa00ab5afd16e9ec20ca13e308a3dd68a6037bc177bd18b37352f89b95decfa79f9f9443dcbfd588315b321"),
  (829739, "" ++
    "6c9ee19a7203e85ec5db816b2ff53c2acd2fa297c8b33d4579d1325dd3d74de6e33dfe179682f999a6297c7429ca98c23d231579d2756236f771ffb2fdb1c7f7" ++
    "4696a7f12573b3e5e3403083aae169133884ef543a809f037ce4c35a176bbd3a0edc89af0cff89f2c63c14a4e6cf769037055f07259f169b788af77314136a09" ++
    "76d7c5077c53331eb9a1acf7b128e7d1b529cb7836137546f4d25017092cbcbb588cdb3a230b93dfd4f9b0e19a7f9e2f15d3e0cf3c62fc7cad53da244ca0db85" ++
    "31eb88b1eb6c1202607c84742ea3151f5cc25f77e9de8cc5d0f5857fdc90080179e53c57c054467419175fde8ffb22258c3d1db9b1103c3ddc46bb6a6888ddd0"),
  (5199115, "" ++
    "bcb7f598251511ddcdab47573b6fa9c20a3b0a1f6a3e89dd8b1902ce03fe03dee6c7a877075925f81c72e521b810e257e787cfd3d061e399fc9e5362363a655a" ++
    "519a5dedd100279f6d9d918bcdc733d5c50d508c5ea6e4cd26b7920c0583c78bfcbc6e6388d02439faf55567c06eba9e17b0d8a25747386409ae00e2befce474" ++
    "72cb828bc136ee866f3e4facd5460c6f82524861a6c8e2584b4ef5d1b1e13932a3ab948dc11ac0f02a6a4a0c90546971d8ee7d455a1fcbc69f8ab3a86cf481aa" ++
    "b52aef19d8c96572f83f30bd74cfbbd3219c9ccf4df33895bb6c49386a5496ffa1777f5907ad5513356c0d86605c9f9cf43dc31e62b0d5d0719602c419ed7435"),
  (877469, "" ++
    "ee508e9d099f46a2f03b5cb9b11ce205d3c9bcfa5c96b5edac5a8aa7c70c3c4187ff42a93af4d6df16a24ba4d6d53a0f08484956d65d30408db2964688e6938e" ++
    "2ffa5f56679c28809d762f7eef5665c8fffb5c9437f59b2346d97792838aef0825a611f912d40fd058014cca04cbba0dc2bdf18845ca617a19a4e027d51c6f66" ++
    "381975cd06a4a15bb92aa99a8d4617a3ca404cbca6edc3ecca3e5a83bde56d5cf5e06da63140cc837655b8cff1885ca60ab81668cb4f0e59d5de747c5aa01dcd" ++
    "6b2d4c85059106eb90fe008c6474e8d51be2b675cac3105e464dcb1b4fe8c266fab8c34eb4e1d95cb2278023d793a4c68fa63d096b3bd8dd8930c63210c7fec7"),
  (5201511, "" ++
    "e5706b46ca4e40da609f14d9cb99e8fc8ae88ce02595e960f1ad675c87f4eaa7d0203737e344922d90d2e9e6f675524a25f5bfba9ecd93c20220963dabb179a8" ++
    "fc1d8523c9f147e17a8da4b849ee55e5fb267d700af929fb3907e50ca45e31186e2b8c5f2223cee4ab4865cd64d435fad8b74a4a1ab3f24cc61e07fd0ccd50ed" ++
    "0ee7166455d1f97fe7b47ecf53c3d92a475d1de78166f753ad944300bc1dcd5efa52c4612427c7728aad006df7e84b3a273784d5e9932789968331f72292d81c" ++
    "5ddb0260fd850aaec42bb0f73e8c88163b2c20f0bb01f14cd4690abb22b96219662e72ef8929371692ef6977e22a6798c9fc9693b71ac171fb04b8a5fb2bc48c"),
  (1493022, "" ++
    "d265c1ceaa7375a3e1bc9dfaa08a2a08067c7bb691a6a92c30ffb5c308e43b9fd37d697b957c464216ee7078b98a65bcc8ccc60580216a81f7f43c16bbe51261" ++
    "45cbe98102ffeb1a10143f043d69919c89ffaa7c0e614ad9dc3e0dbef8292d541ecaa04db38b81e584f0431ac0ed9ac0638883d165fb232593df1a87696b89ad" ++
    "9abb22f5fd2a982e8d4780d0a47e96692ba3d4243350dfe4f0fcc938da9e728695e0e0da8d493a59a62233748e820a848fae7ced8166a367c75b599c522d68ab" ++
    "767d00a1796dfb3c76508a57355621e9ca7c18c03292fccb43dc1d9def9930a0d9199b09025b8f5784b159d827ae5a29ed9f22228abee87f57512d93bd92a61d"),
  (5012956, "" ++
    "f112f5920b85707463adf54dcfa8d941fa18fefe4ec9c95d5e1121ac9efb10917edb0a14c2ee9f72eab31714b721bab0d34a1131efbcbc07c9654c365993194a" ++
    "e0089a69dfdb9aca8383ac2aea0f038ef17a170ddce9e9e4fb241c8cdf3218c4add066ad6af8a85598f45c238fe33202c2bb7c79914f7beb2dcd7ace7b576066" ++
    "83f76b8aaf238952aa8f643ae6f9250b97b4e6fcec0cec23195c2bb1d87b1d48b3ba21c63b29215a3d4b69e1fd4722699b935fba3633ed56300fbe05c5cefa6a" ++
    "cd9ce23f6ba87292662fcb7ec68b01b61639c73aa58867ab5ea113b6b857670ddb67501b1a25409b152a9be664b13acb4385d6264c4b00dcdad19f36db8c116b"),
  (2562264, "" ++
    "3823aff4a367159438a930a374f4217e979828584f06ad1ac4bf069f8c5e5c365ef6ef74099a4e4e35c964a9dff1c4d6b3a75ffccd395283cc273379e123f0a6" ++
    "9ae62b628038f03426d97ac5b9e1b37063954f8d079c98bad7042210cecabb3029da1f2c33478463a8ce81cd21b054ca1aab49179a62dde7cf7df4509dc69a8e" ++
    "a09b51c3004faa5a7dad79513cb3ca00698b884beca2910eb62c481a5f189094181b1e6e706800de85ea4da923844efd868404f27cd1d3d2ae34602b8399dc63" ++
    "cd1463a3212a3fe007daa69ba26e96785ceb871b720c0408d687a861e97248fb6638e2abccb68683fdd19d40e49d3422eacd5f1d9590c1f8ccc176813e2c1557"),
  (5704833, "" ++
    "71245892e038b968ab1783c3e4346b5079b5cc5da3be849dacc174dd3b8d234591f85a5b301b6d200bf525c24b3bcf1d04fb970af6c7009d8d437cd1695ff977" ++
    "42c745cd3bce3ef13c9f8b3394449fdf57ecb8aa06d7d48779a84757b4176e4434b41d6edd67f8044fc426efa099cd049972e745735b839e89c726c188b6b2a6" ++
    "7a99bdbe73b31bb67febf20bc297a7b405078d07e7b9d51984abdf531a99a7d4fef163aea9ae101c536f29107ab66249a67bd547d7d1314cc02cb31aeef4365d" ++
    "d6bd6a7f1d59f42d2a17612b3dbb6ab5f8c29068691fc31c83505ff5932f08bbd1487c8f2c9cbfc81f3a9ec90950ad7e7a99375e7c87233d14c83b4ff6201868"),
  (2578238, "" ++
    "eb14ddc43839a72159d2dafc737d925bcb38e8197750f7defd8c82c2b13596e302534cfd3e0238f660effad9f608dc430babc9e5ccd38c5a4c453957b07d9321" ++
    "2c17938639fb0322582e4185aba608c270959ac029acb60ce3e73703b32c74ccb9c955be2e365d02fdf2eff039b92e8de2aae4828e21a6e34912057b34227cc8" ++
    "f1965487f43896550e44bdda58e3d146bc09e746f5243f7587da83a192cf86d24b1b201b3022818c1b9558d01fe4fbe917b49d92f5ac5b9e31a2f039693e7003" ++
    "802f3b1f37887acd4770c2e3374b8083eb952ff7283a09f16ce4d8205412a9621829239c61f8c02540546cbc1891a8b2766a9d8b1967904382a98c7c421174f7"),
  (4724894, "" ++
    "6b32dc923c9517450161a2f1dbf160c3452d4c022bed72a65b7319f176e20b5c9fa63ce40ed1f4727920dc6538099012c85806b2645ebbbb347807b8d967d4b8" ++
    "20a0647ca2ee8da24a09dd3d16225d57c77b0f86975b4ca8f29772c0a2089e8c292de72b83170d25e71b6d27c0be9cc598237ae044349159f17de6a9c126b4b5" ++
    "dff55b60779c32fc688ec359a2f83bc0f31803d9360371bddc614eb9196d1fcfa215effa9aa1d1972d8b837cbc6b5d001da4e1b4e7ffee1bdb85a3d8c64de844" ++
    "74c15d2c19a55a1beece016c2748cad4cc680401c0fb5bdc042de7adb5ee0e810ff8f8127c1312e89e5e984efc315764cabcb64376435af337c172c11fc790dc"),
  (5045823, "" ++
    "f6a65978ce42bb6e1de8898132a8a9cd123f4055ea03632e53619a96521d5811e770b5b73df7117950c86e39a840817d5d6661b8fc5e029ae6fc90c41979b3e1" ++
    "a5ac3a0991e5ada896bd3b082331b405fc2b35ae0aa48750e389c84cecdf620ab95adfa6e9bc9141ab1ba02d83b51754a5d41be374dab81cb090dfbf453cd67d" ++
    "9a3fbe5c6a7a7c69c193ae2448dbb5455027fcec8b34db4c6447729b4145d5d63d885bebca43e3786e2d28f74cce4f2cc1748db6d0660f2f6f1a35e7f37ed57b" ++
    "2f4bcb2677064541d0a5d83131d41b5efb9c8221ed4717fc412ff8f708bc69523dae3ca1e6c5d15a654fe7bc9a280d155f10b2102df7dca176f8c35e549b2853"),
  (50022, "" ++
    "de938f10d8b6ddc06e08cc72015e9020ad28bc813729c908e3f160922cdcc8941a96a7bc4cfca5204b2c6f9f6a47b157e517d6d47544df85ef6b99aeec73fd54" ++
    "1cfbb376906a68fbc9ca4f4225840b008013b5247180bc4de6d665924679fd6bedd993648bec444639c7fbd3cee1253020c8a8d93b3ff47768a2cde3e65a5e26" ++
    "5fb6c7a5f8bcf3f8d1e4b38efe36deb947818d3c031c7b312fec3e71a06e437dc2a8361f3c49826566f00846e671d8ea593f37e8eaf0a9f0c7e2217a627ae5b4" ++
    "887689ede1bbddc09fa1db392688fa96c6bfc08714eb5ddaf32051aef84419dbfffcb4a73459c2716afe5072cc1feade9edb417d6d33b8de20ef581a017fa4de"),
  (840807, "" ++
    "b086585d8aa5f84d81970d4b03a3836a12afa4351f42128f89b27ff775e9503dd4f8244d146a26193371412a3e675fa4f753a60a03bbde2720991858dcd4f5e4" ++
    "971d5b822ce09b42bd7cc62f95d6fda77162108f3f9242fdfc195ece5f2c3e9e77f7ae58764601b168a6871508cb8cee333423388260587ca46a039ecbe311dd" ++
    "73dda11ffaae983325a5ade69e4f85b37040e4b9f01953b42d8345904ff20c4d0ef3d2356934e9f5a4da92dbfe05e7919026dfffe03294b4f32addb99b527cef" ++
    "ccc5375f936c7bd94511f9cf5bdb492223fb648c7c077bcd9c86d37effcf9a3d0b36eb78aefb7bffb418dec51acf4e86b03b925763a7da9f7f3b21ad8894b0d8"),
  (1068703, "" ++
    "ec6bd69effc171cb9b3daee6ffd1811b9f0499d1935b22a4c434530c65e77c2cb0f10a0d33410a02c8fd1b2d19b5593f0ee9db0c5b51b4e5b40ecef8a1e4f44c" ++
    "8c1eddbd4b46979bb0fb3f799584cac2d02d6efb980bc03f3e9f41f2c0097af433377d284d95222daeb2e7e84cb579fdcd02ad79e710dc39708ca4e311fa4129" ++
    "c1e325f118790c6430b67fd21ff13d4b1f9937e6bea65edfd8d6199ad02a7b477d5d494df30eb4db807d38adb6c4c55b0b9436f2f0f3c149e59e192fad6fc61a" ++
    "0aab41aff36dce0573e24e66be6c6c8d87aa5a259f9d4dee79a325449663efb4ba58cd92d186f87d604c926be6284e8d9bc743a93ce3babe19c36d7ec46345e4"),
  (6010780, "" ++
    "2ac41060404c63c0631a1812264753898ee3ba95134dd323a2ec8d7cc83a92437771f9c9f09f5375d681dde18fdd7111b27d50b0d3a6376fb3c6833658318235" ++
    "9ed8027915937c64193255c2eedf4938b3eefeda7763d424dd88c1f2a57e51355f9ef6d1c83242207a5c5d840527083c9f00f62281136e887f7a9879a5b147c7" ++
    "408b76aa9f0e2c18b0fc36604d7f017f71539a48e8cfb705cd4f0d63de98ca6affd82fb489366e1f08b1d234fc5e789b20f66d1942a3bd9b76e4b338e084c2aa" ++
    "ff8fedbb53d5cf855ff8dae28691d04bb6cfc5beb01ff68d17c7551a2ffeff3f91ade8f69da4bdf51cda74bce3b6852b27920b5a46e357c08ad8c1f7befa94a2"),
  (2552276, "" ++
    "a7bb5defd284e52edccc6bca2072e5548d0ce649feb440a6339ce6cb116f0581575abab4dde282bec7c7c045ec07af387f62e0d73fbe77a324c78a858319ce46" ++
    "d4140de939aaa8c321ec809e8e588c42d6e239153808d3e0735f3f3c3a569ee62f6d85683766928031c57b10b69f93957f4c958c8ad9b82e9d8728640ddc93f9" ++
    "c5b2e5562c84d40efce0b01ccf2406daf55ba01c7afc13a3b7dfd96fcbd4bbca314c7075adef9cffa8b60165a23f7863d0a345757ed37177065b3edd43c78f90" ++
    "b1d62967b8c7379b6a554fa5fca2cd44b671da54d0d5c396fc508740c15a3e521e65c3cef41edcdbf6c4cc5acbced0bc0148d0d77101b38e9ed967c902bc7996"),
  (6148972, "" ++
    "ea01ba589e72f50aecd2de4fcdc5be3cc805dfef99d4ab775cf804e2afd2d9350d9196d535bffb4dc1ea2d584fdd8e8f55d54981b9eef20312544ddcfb9bc509" ++
    "5cc0cf8a220b3302717c985ebcb173ed4374be3f49886f237d517c312927bb924cf3d04efcd8b1df5baf2334de502c697ab4da99421389a1b27c8599e51c0afd" ++
    "84997c1e35147df1057f872e571d291b152707ca64ef13d17a4e59a23e5324cef80009c6f22f103e2194d7dd3de5a41521bc6f24b1fa94532ae0d97e99acde9a" ++
    "5a8934a0cf18f8890d29af236dd6442200560ca827a00a291d5a4c276b4594e34d7da30a4b5e2614ec6e2dda3ab967d28c87058fb129216008b469a96c577989"),
  (1748572, "" ++
    "d540cf0a6f61196239b538a81be1c80f309d32c2b56a6675a23835409d98f738ca22f7c7d3d6a0c72efad61d809c93def2716e6b4fa77e4e07f639d9456bd944" ++
    "6c568f235a05353178ccf1ebe121be03a0acd9404357f2cbb703603d3743e713d2094d6195202b844e4a8c3caee631ed5246a89663161d5389591ffe3a00fb66" ++
    "9d4305452943a14db3c6da7d5fb49ee1606bd9a04eb5872685f5d2edd8c69ef4ad67c53096598378a6b8df4628ff2ccb6a21ce7f8251d4baaf1cf385ccd257e5" ++
    "701fcb4c6340544be0053945340574e5d53f5f21305e1f666e81d3eb866327fd9d3dd427e5e074b380de03b317e31c89a0e77bea929f9a2bb6f660c8bfc1d7da"),
  (3394033, "" ++
    "384854979e368d941515e7e477552ad4ed1da7fa05494ddfe75141aaf8cfc486dd0d4366ec2a6eb3d7b9d78b2acaf5556eff74e9ec0beef95634ca85621b8cf4" ++
    "efeafcdf4b338f260e42d559179a23d9cad684eacdbb8fd9b78c6dfa91705df04f58215b87c547b6df1b16f2e1ef4edc13b21a85d93ee9c1e75c00dd5ca5c335" ++
    "b5029190992f6755f59123d5065a2265c1e8a67ee482932910f03eec48920c659c4910f07b1b2d1d59e4279d15c5747f490619c79fc20b4eede2fa1044c78c1e" ++
    "ee389ca58f32501ff15d10d8ccefe9b3be213942b10d379c6560bfee1ed43056b2f9070cdf30ca6aa3671a10ba6339ea278f1c1dfa9798be0123f0c52cb888f8"),
  (5334171, "" ++
    "48a5f945abc71e93d1ad5403125a71814d21c4237c7f8059238abdd8663c7e33b1ba43c54ab4d1e948c7a2379463062b111346924a5c0ab765820b23c63bd98f" ++
    "66cb079c83db8c778e5b5a52cb552fdd0e3cda3722610ef35f236e2cf6be2f82fbcdaaa4886721bce234777485e377427238e424dd59a7edb935bb81190bd624" ++
    "75e592170f58e625ae963fa1f2051fe3baade02c687e49a13660a312310b0c8a83853618f1cae2d9df33c1b50ccb48d11d7c0a1875f0aa94ae363c6e1dc8cec1" ++
    "ac39f979fc31ccb284fd8990aa25c6d9c4823bbdfcdba31cb63647ce9fa75353b880f649753d03b3c9258cdcaaac215407467cd8caf4a1b17098a9ac2554f268"),
  (847797, "" ++
    "e6386376038822e1051dd23a21401c0c954fbbade9d8eb1f986f29d0df9d82ab6f1beee8b5afa3d86a4f0f08cb39854506a102ead48900e935896b9fb708d033" ++
    "c6871350460211f746f0ad1f11729b1b12f4bc7ad5d8dbb7c9735b3acbd8825c900f016c79866da44135438b9c22889880e956b35c060f0e66e0f510e820f978" ++
    "9086bc7683027043d122f2310379412767489dce7e775db871b57c2931a7f34093c4ae6e867a7965c9384c3f782b5ab5546de21fe8bb416e805f77dc4bc2e0ae" ++
    "3f8259854c09501ad11571dc93124d2cb8beb96c3946b5e8215adb1a8fccabcee409d78498c31fd9b65ecb9e9197a5d674a1e41cad01eaa7731589feb533f728"),
  (744246, "" ++
    "ecc58cfdb8e3e79559479ec45c3eaa85eb00ff63058290594eb243753a5a1ba78d8d67ccb2d959ba104a32ed5e9e5d4d9240d70bfc47de855c1864dd164e4373" ++
    "5c84819664288ce9f4d297d04991ff7e801626cf8543ddf573268d9bd3706ca113d97f1fdca9a91e711ef3a6e4b183352efe50afe11dfd1b00f617be2b8da72f" ++
    "d6391adf9a13a839c231c5b0a53da7b041e14cc53c3ee93b2c77fb4165c27eabac02d7eec191d61e7f31fd75bdcd0109bae2a59e0786a83f00fce6dbe7304eca" ++
    "35d28b9c505d8825e52bd936d2dacd58d943bfabd18ae973d6783421310091eff9d0468ef19fdadcbd1d3d24cbbec7e42beef1c238316b82fb976fe98334f46a"),
  (2388150, "" ++
    "4a504a44a608424a9026372ccc60cd0dd174302ce34a4078ff94d30798c9a42ac510d957976c6be3fd3067407c36b7d69dd3a81f5f39de58ccb8d5ba425b3fbd" ++
    "2a693d1267507f34fdfa4b32c1df7d1d4cc3787158c77206905eee9a932a6fa6e1bf12385e7b554f9c03099cab2b0b4947fd183320a12bad606a4c155037b6ce" ++
    "d89bd23484aafe7a3c5c381a660f8aad434237ae6fca22b95e38597f86b4a8279bf4608ff00b46b8e2b62828ba9bee60a367140f2f0b6039068bcadd5c515222" ++
    "3d8cba1e0bc21ac8631e457548f71fb8a47304e52fb797e9e0db6d4c8fa74f4bc5d5b4d9f0bbc7763603a3232427ef2f87787e4ddfc57bbcce133293b7480f8a"),
  (3400689, "" ++
    "38efc6e4f5d31b4d7a1201e79f2a3ab7021e7ff4ffae316c3922087bf55b455b6d519cc6e5f265eabb75bd76e53789af9d50c954087a2d242176cc03fe3c9bb6" ++
    "bc7620d59df91dc90eb25f42c3f664db0ddfd6ea7c50e6b5a205b8947b079e996f8f22df7846d6cd8583de86b820c7ee1d226c7d1ced06986cfe3543a352cbf4" ++
    "6b6a58cd4ecd1ea1ebf536d718cbf13445525009c3c56ae746efae7293fbc4537dbbcad20548384ab91d73e63bad1597f636d537dfd81ec2132c62638f13c809" ++
    "633d00763dad742a5095290299ccdf0e20e6a585e67ae59345cc321c979477326cfaffb7b94ef9c059c351fa143449b666779dd9f68f3499ed3333a6dbe42b9c"),
  (5581773, "" ++
    "fcc0f7af2938ea19e12b2d2788b1df3b7c4a51a8b2e2f02cdd855d3c26edcf91a0236c2c673a7f07222e1c4bcae5e038b69e508810cf49dea3e430204bc179a2" ++
    "6fe02e6944184c269bcbf0bacbd9a87e133e9020b9eb264a1689f0561d007d3e114ed5c0e13dfa0c8d599549b53d60cd18f09d05dc52a4c5046dae5403020df1" ++
    "b0d157cecfbb109897b854a74339e9a067335de53244eb7a65a9ba1b5b431a93d04a85f309146644e882e7f7e97a9a83179d3212af8709ee01d1d62db09900fb" ++
    "3118fe81dda5817289e1d7832dd5d06a0c0208cdadbbcb53035fce857115b59e86db1a7c341137805f64974d1edb049f8c645e80f10b84088e6fe318d968237f"),
  (208918, "" ++
    "0538660d079f0ac79a33376cce97813221b71039e0d0f082e52c91b54c5bf4a341ad3bb7afa1910a87c0471e17a719fa51846443d70bfbdab1879acfb0612920" ++
    "dfb9d28a2cf5bc5a1b81bd6239d8ae8d8aa4635430ea42faa3567d451f20695d54dd0c64b6a9e1b77ac71141de7e8904f9e33c72fba40437f4bbeb71e55e352b" ++
    "b56e590e467abe63180be91a1d41110d2591e3a60a25b1571ba5da41e296a32da1a4f27d6b62bdfd8e66e55fbac990737f0655a769bf162b946eee621d23cc7f" ++
    "db27501cbc66d4661c68e83cfa89c6ad277b5fe602ebc7e6b478328a4f6d7106bc30b82b2c1e1cb1a53148e756c77f0c2d7a3ea024850ea970e0f3f99d1c395c"),
  (2492433, "" ++
    "b795b2bc091278d7d2159b03eed23ff1675cf0baf53b1277a930999ba4b4f348a4b644042971b3c24634ff70b5d03ad9b04b648845583b62f50d4c01a7db8e3a" ++
    "461c9a7dcf9ce5ed5aa5c4fff2fdc9c2bcb19272d2cd3fcdf4ae12470634e5fa15fda7bc78c1c6bdf1844e5d0eda4470e53d3c7a4c597891deea57f4272eb7dc" ++
    "6032d29d094863ff385e560c65040e5c973f0000e9e0a423fb18fe208cd714ec60be10d917d103325694ac1048ffdc9977a8d6ddbe6d85e3d7435586f758b983" ++
    "6e8635e85ce929b23f58ad3eeed48969662820f0bd03d1ceb559b70e4bd62013d87d407beae81f10ccde1687dfe56f7df6f38bf7c4eb05ca5aeabf5198c49611"),
  (6038288, "" ++
    "288713979d96f275b0e0ba382322d0c83982f796388f3d2f82ed31bdbcb4742f6857ce03a15a26edc8a112338190082862115f14257c6ab6644e2b5abea47173" ++
    "d83ab45c6db6be4fd2ac5dcf175ed0e3b29a31e66aaa28add5aade582d4312ed6f8366af3a4c99df5a4e9b1c6579b4a6bcf827f63001ff97e3fef184171a471b" ++
    "04985f6f6ebb221bd6b4055901deb73c8b174311c37404e3064f95053b5edd41cbdfeea454a5ac04ce789698ac6b8540f27f7ff1b04eb8fb5c355c6735cabc48" ++
    "80b5356daefe8e03738873fde6bb60509c7d3f8cf6f165a8a45a767fb21ea93fe940c5ce8102b38cd62a6a65b23f0b33144e3ac348264dcab5621ce9f0b4aed8"),
  (1549177, "" ++
    "2b55dbd441ccaa5f17237617bf41ccffb975a67f4de3db38b21ef6f5709f43954d51f5f0165dbab33cf83731265afaf614f43f6ce7ba5082d5642dcb97c65234" ++
    "9158e0ef1f20473db7dc0edcfc4462c1c17c05a00fc94ec2d2e672d1c3502ab1a92b271d7df2035df656e110175f8fccc70c04cfe054fda9ec23796e103dc131" ++
    "a2c9d7ac11f134aa020a6c5e7855952386ba0e771ee11ee5f3f8fb87a284428a89d82d3ebe26aece9f808dcd553fd2ffdf3b94f156bec0b3c79373626fe5de76" ++
    "85f5b3d605be4cb971330d7b6c7511f3c3071964be5e2f514d8cd03cd6086692669b92da4dce66b48a086ddc7cc1cd1b380db26792ee42f3a0c81c552ef862db"),
  (4054008, "" ++
    "e0b3517b2be81fde84980d2909f0a23098a4ba3aeaf1cc94e739bd62e3eeef0dd1431bb80e938fb4a3526320dff49f65a70c8d01f7acc3970615cf657b624168" ++
    "8f95329b41ece663724d6de8d76ad94aba32b9930079cd0c2c69394868aac244860e6cd4ece2b129d837170635d14feceee3fedf0badd4bb00738037ae83cda1" ++
    "77be787fe30d4793e620dcc09b67cabea27c7ef1bc792d1376a7e3b6e6917e8765f7974c4b6feded99cdc881ce286f0743032285b99c98fb1ebf5317c0945b52" ++
    "8f970df7cc03eb67fcd07c4db3beb16a807b316d9adb3280cf1a6facbe31b1b5bd3e58bbd73bc0ba0e5e9268e590774e452ea1951a329717a77d137c183fb5ff"),
  (537653, "" ++
    "c8ffb68b8f2255986798b710660388347294946c300eefe474c95782d453a717c53322b6613e8944beddcc678c2d5fda73897ce0084085bf069f55afd526709d" ++
    "23b59a04bdee20c76ed18dd93dcad1fb135cc82d8b6899e97e471e7fba22aa1ea0a0aed4334f9fcfe1060a8043684b96ec2f3351bf9dd40cde87536c0aa86250" ++
    "34ef85d7f823f700e40678787d736445cfe51b7878cfe58fd1df6d6e096a5a393c7206e90b33ca4ea486960c5145017a7b929112b636d4706cd3c79c13aaa248" ++
    "46ac3d195586a6e0a5008875cfede7b277b496c43d40ea08b08428dbebc832325d242e59556dbda85bb005e55da2f1380281868ca772d34ce00e690c90051aa1"),
  (4068754, "" ++
    "35cabcf790c71246c907b858af29d927cc925be292549d4271a77a67561772091dc4dfe610d45bb160853eb234a56c6b8d01acc93bb6ebddd55a5d70450848c9" ++
    "64f720a6c234614068c26db9a9c7c4e0928269b93714bef743344018339e020e394f21f509787d91b8338882b83230951f3e38dd95316f349431eea5827348cc" ++
    "64f9e051e53d61b91adaee533c7b04e753165f34bee35515c0832942139f3a54e974d74f7b04c8169954743d2552a10772c358d2c64bef9482e1ea784d14387c" ++
    "b29de37e18c712484a1bc77fe2959fb94305cf739f1699f2420ac4706fa201302c5065f7308a956476ebe3ecc96d15135a4feffa3f5101f8772f68c34b1ecf5e"),
  (2166110, "" ++
    "e88072161164bcb5deb1d82b7d64b75013f36da65989b36e031fa86932c306ae9ae09bcce132b261b801701aeeaf4d815910b9a1a5149aced29bb6fd57e76c95" ++
    "9f350f512ced49c8ab742405ae95513bf2771621427f97c642f1f5e480f0214c7ff709d83ead450cb9511cdd8d76ae283b68be24fac2dab3051adf7d51182900" ++
    "e93c2c60bb893524e2bf843cb03625e739123fe6ec00d5623eeebdb0f44c825a13bf7d23480f751cc2782970c37e7f9a907bd245da64391eb6af9fbaceafa8e7" ++
    "6f3fa510867bc5654f3d8075c03b8f9c0e8612c3cd82d9c9e208f8378ab5b5bc97337d483e396ac32492580361ecdc25c2f1b3d357f1f795f0f4f2f2f915daa8"),
  (5616547, "" ++
    "9ff6fce9ecd5a6547d0192214bdfbb360514c53d6a67fa8c3f620d901fe6ff494681f03833d90d94d345b20ebe08c8c6eb503db993c4e74bfd848e4e4b11f949" ++
    "627b8bebaacbbee4f8636ea6df5d3e716ae05b917ce82273acf187761747edf84e5a37d7ad11c0dc350e0679a9e0a2b5896d5ee8639945cb064c646e3167994a" ++
    "878b2360837beaaaa39d65175d1b278fb1e6fdc4fded4093db857308effe34c18cf8fb61c6773b1d81f0627c99ff9bfe2957cdf71d9b959ae098141db827dad1" ++
    "6ee9d479638e1933a908672cda0ce0f454ff5b23725dfa6c45347ebc8c58416ee5fffea27217ec3eb2ee5cadf71644a981df1b922682110d3fc2b68494b4a251"),
  (3786420, "" ++
    "b3bdddfcf8c7a71f2a1da2fee9785b94c35e40eacf5e01f376d85ffbb95840f63a9818620c11f10f5b8caeaf78001c990e4d85110c89355df2960bb5bd9d9f51" ++
    "3060fa60c6452a4a1e5216fd94bc155ca0e19048363445dc3d2987889f617598b82e024ade7af0c3f9dbc105997e0f376d7ce8eb1e4a99095150822d9b6a053c" ++
    "1a4a18b11439d08df10493f2c032162eb132d0ace9a96bcf1fbba40786532bc3444ed911d3b978c4a0e19ee734d7159fd5c74f273b669bf0fb0aa699b0873db3" ++
    "26a4b41a65f4dd89bb1e32b1e877583d78b7b5ce637199302d79c984cf5127a072bc987a79489ed409318ca9565df4f0fdcc8a7a8f1b29f8c401b5304c304821"),
  (930272, "" ++
    "91556d682a0f37bed81d7fdc993638899fc9b9f1069b0c0031364ae82f3a2353d112fd765ab59f3f357818e99f43af66a924be23b8ff5b0f47c52fdd835a0b5e" ++
    "9fbc94420042298485eed438d8c7c9d327adbe5b0e07b39d34d56d1fccde5811ff83bbe1c5d04e272f98d96ec738b5a94116c9e49965a4b26f76e332d1c53101" ++
    "90a783f59033aa0a137e4bb8cbdf1afd2862f57249efb18bb864ea8b339f582359fc9b589f8da64f25e2719c3094aa3a7ec0dd9d1ecd4a9184534c4fe3572887" ++
    "4debc8bfaf0b076fa9fdc814c23f5253f10c4c4cc950aa38f2d46cdade5410aae36d5226341403e4537a8dc176f6c3a513995657810ffdc18ec6c67510474d96"),
  (5431237, "" ++
    "a5bd795b3475d657e318d2e5a5a3570fbf64e0e30199414a3732bcf02375494d3471cf68364dd28d28185a62fed5d184f3d7c262056b5879ac21b59c3a42e82c" ++
    "081fb55dd1e15934918fd3a82b4bfa2ad8258dd819fde880228fbc5380db8db903b151723e17c460315f2ef415c2bc7b46044d857016c19eaecd15f8aea341f6" ++
    "86396385b54fdd9ab94c18e97ecab551bd6eca2552d2f0a21ac711624c8975518784c513376d6e0754b8d2d95e4336ac0e6f283dfc5358262702cf99a275b8d1" ++
    "3e0e17dff4fb05a16682c09a4a76e54565a7cac6aeb58daee54269827266f4c94c4861873aacd9721865b63fc11817411c894f29c83fb7455a6962ab58ca3c2b"),
  (5776086, "" ++
    "f145fa058a428d997512c962d0eebbeecb81be847c4e87a596d6f628b97a97f852e00c4e9352e45f3fc46d7061063372f370436c0c7c01368f45661a5c62d72b" ++
    "90103c280b9aa74a642eade572ffe86a78314ffe5373e5f181b67d0fe9558cdf67a85079e107f4f64166d1c581afc08757e6f3743d894a6078b98776d075cf69" ++
    "08cbdc6e169edf8ab9e5eaba8695140378e1d44e239ead2867ed0b99d233d4dfa4e8e847071e2a0df0e9705fad82bd0b1a340136eb4f6463cdcfe2ecb25e94ea" ++
    "9ab34a5c358ba5404231a954feaeaad6eaa8d71710b4e492d729c5b4b979ac1c098af3dd763691ff26ad592a1aa4416181f304c5d8d590e9df06a7a46c95e8ea"),
  (3103863, "" ++
    "cee2afbcccf4b427a439f4f11e5c0908d474fd6ab5c500c909b1a5f1fd4d27f275f39982c24eb0d6dae935ff7a59337e5bf915daa1a8479ea885e954f0df861d" ++
    "4117d4583537ac10e1875af1664bd238078d2d8f13d58d33e035bf6ad9b689c57f8bf7be7da7a44cfe7096c425819a1b721ea90509b5c70d4df1e02b8fa0c687" ++
    "51936ad7a4a181fc710fd9134c84a80b572e73b4831cb24dd3d295950a80c8e6d8ad349c908ff31bb93a95a1711620e0ee661fa02727f9c1fcdb90969488ecfe" ++
    "883e7546ddd5aae563b51b9649dcb626a596782c2f2251ec4afd89eb3e0d7e1942076f20499f91e16ec993127bec2ff9712a3737033bf3f566c8a9ea961a263c"),
  (3490600, "" ++
    "27e77c0d4a326bcc665f20bf4b7641c0c99cd770fbc1d070da37d139475b59ddd82217f9ac70e2f49e91f5897cbcd178a294afdc6f9c03b91d1447278bdfc017" ++
    "447a5255e92ec469dfe0420790c9f529de20528828c33c049d422513c2bae9301e0cd642572a5b187fa5d8c4d9ed838fafcdc2cbfbd6e881f51af2362f1f71a1" ++
    "dfbe83d75f0793461e6b243fd8b9878ca89a5a715e8a034b907d670767a73593a7544b0ef6f387518a87933b4c30485c8c7ea73b5a6ccf660a7c943173bdaf55" ++
    "82c6b9c53c1a6299c76a28d90c06328fe2633aefb9befb6177ec0de2d24caabbd0c2cdc2229911d11de948436e6b493765bb7a75f00f6f5631b193724909d82b"),
  (4390500, "" ++
    "6add6397b3c43143c8a65974dc12be0994e84a742e0b9f05a4632fba10fc5504930e70055288047ee01e581795a19a590309bb7f1c2e8c3ad334383abdd59b50" ++
    "bae75fd2d36d751616df312b754bb7c4442b49063c398cea892d5358fe87b67ce126b42c98854089360272799ab897be1728f1f5ced580a466cdcac430afefa1" ++
    "4882179aecdddcc378bce06d6bb3ece80fcb90316aac58e974f4a2bb5bdbe7d7c1b2d49e67ec6b7b1655a4b5fe194cfc4134fe0dfb6f3dc9060726ccf366b135" ++
    "8d782f223fcbc664cf2e0bd81c4e3fba72c16182bce110129222edadc2ded555a82cdbe695d78edce150ba822362793e83c392f3f8207f15fa02912330cc501f"),
  (1468161, "" ++
    "e96b171d918a9f17fcb43e099680cc5fa3f5d9ad1837d218cfba5dea5f0d4e1c7d9dbfbc10a39e31280c23efbda02d4a0b58554e00e732c2be3f146f1e5d33e1" ++
    "686eed0b53b0e585fea97d24b72ee8a5850ce34aae9423ba739055f935f1a3fbccac9a97ea57749625d7d9971aab0bad286f0e206b100ebcf6fa10aa93483501" ++
    "e52def8e22796f296029f31b7247d4f877883688cc7763d026a923db8abf7890f436f756de211420f499e599ccf48039a40974eb3d494c9818500bc75e9341fa" ++
    "94245171dce4e6e473cb6529aed1d8f0c3b977202a490773c5272ecc3f525b6e97cb9144b3cd29a5028fe9472887a1c188a39b397e5dec3c3379d7d2dcd7fa10"),
  (2971818, "" ++
    "0cb5d1130c9654d79e590775f04943e7280b8e232b69ffac60361ff06743931a163c2719c3040fa7ee49242a7d098b91779da077472fa6f51b993e460c811e9d" ++
    "60e71072e109b13c1d75b73a2ba12f887342e5b24876e00aca57e63e01ffc7a516c174e873842dcb06194cff583562fc7b50a0ac20b03389aa7737a529f29699" ++
    "41d6ecb3063ebc0d1000a1188f9d273ebcb43838217d0b7a2a5c25fac159775a49c2f46c0995475a5ee45ec3e6405d42c88e08852e62b1fe696549c78941c8e1" ++
    "3eb6aa7e247027b57b735b3eb69496b9a588fa8ea41c456642aa87bbb4cae773b6642dd633569153570c34ab31a18e72abcf29e8e2a40758ab37d341e256a428"),
  (3661338, "" ++
    "3f6a596fd4047e073ab5a2b418c55d9077bd250322590471fd7e6521817963dbafdbde92e4552e85983549beb88f1e776d2e813f55255dca442ea4d99ab4a95b" ++
    "bbe7809081ecc1fb2e7b52d5402b64a518d0b154d1b4ca82ce8d7ac73aca380773427e1e98750de19095641fe63ab21fa97bfbf403cb8b101f6750b7b98a47bd" ++
    "4f4da447fe4822268dd32f13c8e22c54c7b82916013a7f6f8a240a0e1a2da4c75c12c49fef34cc8fa65811a4aebb6f73737e91ef1004bf630754bc3aa350d37e" ++
    "56bd2fb4e87847781e78c08a405aa90e62ff3e43359daba6d9b21c2b487121e6c4b674c412794e9e9d5931c7bb2daa2043f3b2c3a1e71f667fb010ca3a154be9"),
  (4466970, "" ++
    "a15be76217b3f36dac8a706e1ccdfb4a208a8b753afe6dc8fea65addb8744f0dd7deaecc472a86944778a29f889da14f774fb5d4ca927ed3e624e668e5ee785d" ++
    "46a42f2522a34a5fe886c2094f7228277e976e35fd457fd6b0ce501888ad62e8bacd6049421e84af8e773019636a1fa30c092e9dd3749155ccf732f98879331e" ++
    "e781e4c18ce035c935b857c5e02bd25abee7a53a1e7618e896656ed397e5df6723db3096f58dcab869e619aba2f063cde95ab68dd28e1cfb94f1e4005024f762" ++
    "46c786b4e546f494a5b0b675fce9ae89e4d19ae7e632c80f3a5d8aa67a5e7ede1e103dcc7714ca90fd9fad698d2d93989838e1339bfe7cbedfe270b92cef0a7c"),
  (1585911, "" ++
    "d6502fd695ffb6ac7aae1815629282445357e94a2611f16fd14838278852dcd9efd1d9514be4b5dc18a459e224d53ad0190ccb13d14dcc7d0b0ef03729d9a3fb" ++
    "d52da348701b5d02092b96b308d0984d432e2aab3a5e1b2de7b1d3f8e74553e0001ae82bffc386067dddebef00ed86f922c881b8cd7cb4ca24ea8c3d6801b47e" ++
    "a43b9bfcaebeb1a071847e14e942e01f32e38216832dca71448607fe821825175cb4c9be33d440c33ef152433d3f13c0ae756a67f82ecb010dd432d4593a8b8a" ++
    "784699bf6694e6ebdd037891270f9989b5668112700bddf8ca71394ef71ccd9fc161efb0aaacd63b543dfef24bbd8de78b8fbdbc01b19aed15a6196a3d4535ef"),
  (6253037, "" ++
    "3e4d80134776fd952d0fbb155e5232232ebe6da2d767c9dc5c1ee0bf67a45029ce1121c3cc4bf858031782f0d155463315c0199b6bfca21e70b59f335b1cd8fe" ++
    "e4a0bf24968ccf748fa13ffe23532fa1da196f50778c0b1b6333ef5cf4768da0356cdf918841d5e1551b0821b5112aad40eb856f8c0ab26dcbc5f0b35dae36a7" ++
    "655e39d4bcb27122f56bb2c71b5361644d118ae8972d7fd387be33523c6ae93cfea834ef7dc0a6caaaa8dda4d827a6e7b17894fac7d885793aa446ca78e0630a" ++
    "65fae76bf6d4bd93ea141571ee8c02757f63d39ca328ba98855469ea5ba3fb9f8619d81d85c36b49769ff679faf36412aa4315f2e69280bcbc73056b79e904e0"),
  (3956927, "" ++
    "40254f5d322573a22e68f7058c77dc442fd3c5db377eca6e82a5bfb546a737acde3ac96a7ce619c84a1c16737ad2e0fc91a31fb633f901dd9258d5a321cd3e92" ++
    "0b4c2357ac956d3a199e671e707efe1f094f52964760da758a536b44bb7744e6c355b8629fd9546229e38323706ce9f109be158e58fbd68aadf6f511ec563cb9" ++
    "145b6181c28bbddd01dcd38cf8cd685cc5400b7eabd2717fdf78206b5f294d2029b5a9122694b4fecdf548b6ecdf9bf99acc2744929babd37a76cdee5a71a798" ++
    "71e23c4df80b8306c6e1d026db7a253a1bebc0e4caece5b0a6ed3c70c487ae88bf3514bb59e3c1fc2bdebbdb22cdbccb4574d3c1672e5fb3bdfd4cb2e162d456"),
  (4901239, "" ++
    "894b3b83ed07854d539c1066ac4b2ce0569b6085bdd6a3df75056f0e75528800b4c995b612b9ebefe2ace36a8f7d7bf77567f7729d238ef91f1c3cb730cd93bc" ++
    "6bb3085101fc1a9512324f09b3eea3c7070236461526e079319001c6ee355996b70e6aa3483947590ad06bae1b768666b8bdb04584fa359bcbefceddcfc94b9f" ++
    "9744c3dfbc3cdc718bc01ea35adf374e9d098b35ce80b90571cbc56b6009b2e0c3d74aa586ae5e253e7b3be69ad237a9b923eff3fc5d329a2522249f5a6ed130" ++
    "061e0d9ca1e6ce1bc9102d208ac2a8fb8e9ac7f265af22215165cc13c81974396bec0f165155b657609bdd81adca9b17211770dba4453c503203f9f88b625af3"),
  (4435577, "" ++
    "c32433aed6b048d89731911c2cacddb3e9968fb0c19593dc11697df20d2297bd1426307b6545b74ab7df7b07a91867f8660b0aba284d4f7d419c17b0ab66ce25" ++
    "59e4d2a1bbf5e96c5f91f79cdaf0ae678e5d80f7111189a45bb9f2ea29b6724c3c2acfec5a2f80bbae85e0183b838b1df313cba83c54f9ce5d5213b1ffe65254" ++
    "cc3be532fa8731b9fbab7726d45e485d6bc2c9d31210a192c7cf41b112081c3fabf8e2c96bdaafbf9efd19ba06c05e880cacbd31573d52b854cd72f3bf1644c6" ++
    "4d946c8c2d833673accd2a4bfa77d12b2791fc4285cbabc6dd947ff48f9e01178425a3191663d816c98d7f7bc0d8c647682e9c5bd22bf1c2ccdb763bf8bbbe13"),
  (5583166, "" ++
    "7a05b9a20e90e31e8c659f6122f825b2fb66e5d2ca3ce55682b1943a0769692da8b3769ad574ec71d8c7a05c33d9fe75a866be04b9ee6d1b13d709a3d53953e8" ++
    "49cdb2a1cc1a571c72925b8d0bb5b8bf412608868f5129e0662e36ed91e2be51162cfe8b222a7ad37f626aec072384363ec45b6ca2abb6dee7da2873c24347e4" ++
    "7210c0bbf94af4d84fdee8bdac4bd725af12b96c3c18b6c15cb063a0c76d72ff186809b0ec3a51d166b5d99f0174b1145faf3377e96e1e9ab5d5811d4750b22d" ++
    "4a00223cfa28e255cd1d3fa6a2524e56cf91a07c061ecb9cbbf5ce04492c737f919cd118e7e09ba1b373c4ed8be0322721c71ce269176129c6b875a166a33cc5")]

def lookup (i : U32) : Go (List U32) :=
  match items.find? fun e => e.1 == i with
  | some e => .ok (Dag.wordView (hex e.2))
  | none => .error (.panic .index)

#guard match firopow (hex "2d794e900dcad779e658de9078d9a88eee87d75f7b09a8fdd270d3a8e76650c7") 1 0x85f22c9b3cd2f123 1610610304 lookup l1 with
  | .ok r => r.1 == hex "cfab3766331d6c4e6913e6688a71e4c26b7f36c1581cdbec0f5b19db8956eb50"
      && r.2 == hex "00017c7de1fa499314f9e3dd3537546982073624f7d478592cf28a6d13929f2d"
  | .error _ => false

end Verif.Test.FiropowHash
