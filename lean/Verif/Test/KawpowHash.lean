import Verif.Model.Generate
import Verif.Model.Kawpow
import Verif.Test.Sponge

/-! # Conformance test: KAWPOW on the second vector of /repo/kawpow/kawpow_test.go:29-35

The dataset items and the L1 cache come from the independent program tools/ref/ref.c; the expected values are those of /repo. A lookup of any other
index fails. -/

set_option autoImplicit false

namespace Verif.Test.KawpowHash

open Verif Go Verif.Progpow

def l1 : List U32 := Dag.wordView (hex ("" ++
  "d3549494dd56ac194300f47811cf82b84a4c9cd527284fb45d5e0a30990cacf5513b4e8ab69c51e01b4bf83b625842584f108d9a3031e99a093e15b55cc82aa4" ++
  "1023efaa42d6a08b0090e11b9bb9a90e737f710abc675970e298c1bc7a8eedde3f4e1fe7e64af85d306dac66502a955ca376fce7ee9b5ab047a7fa0f236ccf33" ++
  "068c2d96aaa196238e3f08850a4cdd1f0620384976daf57a8375b12cdd77f5f6d39e7686160c8da7a3aa01446e4812bd96d607a92776495df4b557bfe9304c60" ++
  "280081d686ca42d14ee16f25a2846b8254965b204190f4c76de3cb92bc21d0818b22e923d6bd9f66b253da6e1a30ca5b077beeb9abc5b5a6b0f42c1c2c3e1946" ++
  "da259423ebc371149664de0ef79917a82cf242b0b76026bd58a2ecd9fe2f5c095974040d7145a783764cbf82ecacf8b41f63ca0d7b886c56792cdb035a75a087" ++
  "49c6760fddede93c6f99b092768085692f09f4aec28cca9301ba8efd6c0980a3a286a52f5b140fe942e1a96a55857331d555fcf98e02f207756fedcf47435df6" ++
  "6144f0b8c29bd3465892c024e305f92fbc0ec0779642d04092d2514fc17fe8b8ad1f80d30458f23ec180322f6a5d5c676ead6aa32212d1ae81643d9f4185d9e1" ++
  "2f1d45000259e893f841cb3e22e5a816ca32af9bbe9736514c1031880c23ed887c7dfeb718019af8c15d1fabfa5e78be738ccf04b0565a835b66e40c7498b348" ++
  "4f5b0fddf081f451ae72940a10fb77b9c173f285eb61554206565ac16891b768894d7411cc30591c74b622a7219c25530440d11b3c4f7e6970407102c45fa1ac" ++
  "3afc3659cb48bd45008264ab4c5b198cf2cc59d8bd65d2cf9612156b0d86207e5d51cc21074b771439a6aa1ce70a7d00f8449086cda4281cd754aad134c78955" ++
  "5a4a9471954c8408128c16f9e6d821b78cd3185a627d5372e83711f17ad55c8ba9db8022bd7df53059daea9a6fa7f677d8bc873ec7d3378e25cef466ee8b3c08" ++
  "6bc04afc63459c2e5fda1ef3a8bb91a7c5574d7e9bf987f6b5a0e353be174095024d74095aaee7b9a8906154c5efed4a5104a4dfa9961b5ee4a6e0b0952b5e6c" ++
  "61a9fe0fd57fb47e1c106beb0ff0095d3eeb72d2fa6a7921c25d58420344f42c473dc9aea2c5f496c7a82b75a10eb22c3ceaa57e13422c6105eddc2b4ec70b89" ++
  "371a475631799fde9e97c2595ffccc939b9a86d58768650e2f18f2a0024258df3ceb02f395e72cc5a27e377e7288d0ae410b122efc96428874cab19818897979" ++
  "31c6a3eb39c052a42b3e27fd293edd646cf1d8a9087b775bb607c5ab54421fa0c1e028b5db9df301e2e5b82472a99b3eed3d406776d5c6f39ee2b0bacff679cb" ++
  "010a639d7cfd7229a71282e261a846e8a8822df7950a7e88155bd9bf03d74fa311518a6cd77ff1f0ccc2860f2b057609ec10de3c6f6936dac926170057842dea" ++
  "e276e17e84c9362eed46993b9931e73316b0e0a8e7affe77dbab39285bbdf1b6403068429f727901dae496448def28478dceccd018a4732e7585f60945f33f8f" ++
  "3d7582fd01464a7f3d65d9fa426d32ec033d8be7b4c80d0c3127121f87ae7ac0a92a16c1533680a964b9317ead79ddc0df9a8e428c2203b0bf4eeab5462921ae" ++
  "150e42b6322a6f79a722a8846a409de7768fa1c109c2e35973f19a363c1f2a448b980d6ffa8ae7749754f6398cc3f3ba0177bf49d00cdcbb126c4a61d597209a" ++
  "e0a8381ccda138c26a434450578eeb5d98189e588d360208827007e4a6495d36a03d46a86bf84b11a63e68b9d48d1262a994c4469bfa648dcfa82ba492fe1f99" ++
  "6d95505c0322166f1e2bbc0aa70450057155a0388361780cc87cae9c6e3f419dec019911b46c44a8d174fd037901c0e8b03ccac09063ba612a5d628287acd390" ++
  "b296c28eff7ecdea1116f95ccde5d72cd0329396e47cf7d22daaa574a554f940162bed9a2ae58ab1897352ebf1dd14f3914c74925c527eb495b5f1f6db633ffb" ++
  "ab8f30bab59a62f38feb35779496aefb7566335ef5c7c4b4a4bfaa8af71984ec6f920abe60ea05087d3461a68ec08184fa7ab34bfdb685fdbc098e8f83a93230" ++
  "2f02fdf37a3719f351acba8f67c15d7b3b1d33464a4328ea16fb0bf7928e323a87cd2a06004c2a01a44e0727f77b7b11709dc1335ff7eb093293cb9310516c8a" ++
  "c167ab913fb013a689330b50d3162bccb543abdd6995cd8e9635c24cdad7870b38517e47f57e034d1dc56f5fe8033bcd6b83f0b5e13c8fce154b0419a4d66321" ++
  "6d7f556c36d27819d657bd91cdad320059770c9d36d2f6a7c111fd795f86b0e3e2db772637b5e42bab23665daf0e10407c3d45b4af4230d24f8ccee4fe45b166" ++
  "a0298909f2b30473212db49d7e0aa0fbbacbba2ca02e90d3ccbe040c562600e92eafe4984fd4b4cd73c9258bb498dae0eb047b06edb94403d3321dd6f6158b32" ++
  "6755575f82c4e1a881f3d1144b4f79c86df64e05511e29423363c49d0d509f51fd6617d04e70dac60393535101f2020e59cdf5e366c9c0fb109bd6b8a87550f8" ++
  "51c1c53b293ec0d7b8294ba125a06ecca522d022268fbad0046685b2b71d3ba853ac77a3bf76c3b0a54e4d761847366b57271bb6b048cfd07e29ff74e6c63e73" ++
  "38408c3dde410196d328cf39f9bf377730e5e9f1d29c866f2393839daf9c7a07f61c0ef9cb201f530a74dc8df8b73066a248557333027d6275c55444360e32aa" ++
  "106687df87cd084cb9b1b7c171d1da268a9d4bc87537dc4ac8342d7a75ec4d6c7d93fe57162200c93ab0d8c235062861b10d96f72e7f738592d8736a1b79e201" ++
  "95964c2f64cf352044ae071ab8ff99125437adab7228f5d1155f320a2845afd07f4767e5133a684ef950c02de891bcc8d678a01fae08f58744b5a0b3a0777807" ++
  "e7e0c1086cee8ef57f4a0bff9f2b9c65a5cf9cd76b7c4126fa337c5cde9ff3f2a8feea81925b0dd8b71b0ef54aa8dbade7f156928202bd55fd8b8fafad0ade8b" ++
  "ce7c4e2cacde8a873d999dd8039bad9e2102a23fc2572d6c7116e0543e41d5abe3e66109bc56add9433613ee615a25b8a79979acc693598e4f29bfe30cc8813a" ++
  "72bd3a9db89e65be5b548d4d1cebc526174d05427675ff21b39efc89d6f3c6619aea8a8559f5e926a1f0203f142836ed3ee026e4b9e41dd2d667bb063012cf76" ++
  "b47f52fd7b54f7e82367a94ae78e2b82769a470d6a6e0838586169f8588bf2224f5a64a6ef0fa636190784f777506afd361bab3efa954dc84d7708f2375d74ad" ++
  "a47c2eb92716921777707399ee73b07af638a4ec8c84924c4f453d137a3a693c3cd96bc0f51fa79016877e4666f0290ece5bb2e406d91c745fcf91bd7f137883" ++
  "9a1bba5b1c837e0a39cec56522283cbe4502af00e89eb60a4870ccf977422aa4a9826a4bf701089f8752367436f769bbbfb4c1c3a697c0027cfaf257103d501f" ++
  "5ed41f39a2bf97ee484e243c7f9b157e03b1834ffb85855d84a9af8c01590f0212b5e785e8b09fbd26bcb544e172cff20bbe56a4f86d906704422ef1e5b8ed42" ++
  "013b50c6f44bc80c9c621973a6771d7818f19abc258510401141839ad9f80831973c345cf13a3dbb93a9faff32175f5d99c2ab18be9fabf0093f442dce199a71" ++
  "0b1d5c83f089e4241503e8a92b1861c070aa622ebea8cdaee9075adf9ccf090f69192d216bc6a33d4fb7305ddea02fed7f7d9c85cb6a2e34c6be8dcc98f94c72" ++
  "86f2506dc781c1bbaae8d893091b09d8e3dbf2990a0bb2cf1fa5767b525268762d9a40fa137e37a6db65c0cf92cc0c788a3cc7d5aef5214e9b6075369e740213" ++
  "4ec1422b9e9e1a19837e763dfb5d939f4796232225cc953eaf983bfc395b433fea69deccb19370f06dfc2295da84d124d5c6472e710c9de3ddf2c7d553781086" ++
  "76e0a732ecf4102e0d91511a21339fae8f0e9cc554738c0d6084d393d704d28d5fec7af2a41e6742a757d7898ba422343727aa3c38c33b109dba6e78dff0f35c" ++
  "c265172ff519535c947e2b42b1bf58b495e7d71f14e368d75c3228e464e225692b1486502bbdca7932b605ef7abddf4479dd8a18c4bfad164cb3907816e59729" ++
  "c198599f9e58aecd0af937b8abdda9dabe681ff8a2bf3081bb57e6a9bc54773d9cc7605a5bb0439c87e4c66894ea0671728868a47109cef4ba83ff56706aa6a0" ++
  "fbec28cf1dcdd4c14102cf8b1fe9a226bc325f317bb1773fa135c414e3d3625f2d252f45ae5b0f66fbd22e8d463f1e01abdc7663e2a2734fec9cda0780556900" ++
  "df3d46550fb4deabd908c3a6acdf718c8853e7575182389dfa52b6d88e7b19a86ed3618262b15f1d5774ceef32e4cbebd6cdcdbfe9ea700df22508b80a65e1d0" ++
  "3ed609f631d0f1a5126ccc990fbfd26a7a6b00ab946beabdc2fb856bf4e53573a5e7a08e3c4207c9955b762eb63d50ee984224558583d8724bf583518142d87c" ++
  "18941ffe0c911a23a3faaba5874246b7743bbc7b3174d0e18e4615fd4db5f41c6d0d3952dd1e8c9e6d56976c7a96af4217ff7254f665f5bc43ef43420695bf9c" ++
  "5183eb54ea3ee679bcb72664b100e8b7e515b147ccecc992c02a39a7b26b0ff9f3dacad14e21b7b111a4ba22c84f2c845f1739d7dba1f1756814f41314b2546a" ++
  "0fd0f550599ad28c9cd71cb44a24663901ec67c831e9f6221553f82380537a1308bc8dd0c00fe56a68dd133bd6d105081a9c05cc7ec0e9a3d88fc32598420038" ++
  "a827d5cacd36e7101e73d744e04b8c145cd2c5e77e3bd4550de3f01c11b04719163c0b5cd2df691dcca3095f937f2f2e3e09f33f5619c1d3fa02b1d9759f96c5" ++
  "8891c2766d290827b28a352797235b4eb18dae10c706f3511bf1f56cdfd52087b2ae0edaa2d9eff0138a067957b180af9d5baa8d6ccd0256bfdb352326d87947" ++
  "f7363d49f1133945df5c51f159ee830376be95e463e124b1acda82d35bac6faa1784de9783410a897a629c82e0a98b6c95744dec42872770cf45cbc22edbdc26" ++
  "27421e8a35a8ebc9803a8f70363399a20fbe6ba065c4b87ded5b4c6733146573296019488d26b06292248777f3e59b98af12425d049a8c8951f0a646b9a48fe6" ++
  "c19456f2730d10f6f1d02722ffbbca0fd32ad9b98984cde32b72853476ac4a29ba78f741b6d2577fd198ee99905facded746c96a77b8f2f3c575848a4315ec04" ++
  "fdb82b2fa4ce60daa1a52ed5b89c80d430d44c83fef25d82377f3db5fc7b47e9595c302d191f1e6a9e56b40f72ef6c01156d8c34b2374aebdb5e4cc28ffc14da" ++
  "994a652f5108de198cd1872b7c1622f8f9a63e93309dc743c66ddfb3b3e541d59d4996ed5e8ad9d1df2c1fe610eb38742b0ea404a847a4b19e08527a4ac6a041" ++
  "10a9483fa78bdc1d63a12c9ef189a41b756b2c39acf932652649979408b24ee233b69491e55df12395c80bc313e3d1597836d0df15462de6cda9cee06d65e3a9" ++
  "47f26d06761bf057f77f9f11311cf9320f816dc22b04fd64aebb13a96127a11d588a79994d0dc19fbc5064a3b7a61acc8d0d26313583cc1461d1d05d6f23a004" ++
  "817f800145c53d9aea535e11264269bdb29419bc03f6be9806b6aae4aa24e8784a1bca58573437270923e7a164b9c4a5129bb29b445a31bef081c457d7162440" ++
  "ad84d084ea73a4a36648eb3681ca3cc110be8e0181eb5369730c4837e95e56f384c92bfbe78ea4b71437bcd1e89c688b32460ea04b5fc74d90671f8ab8411ba0" ++
  "0167b2770c66dcde43d0f41768f24084b1ae33eedaa19e55c4e7692cdba116ee512ac69a03743de2e8139390532ac0776c8f9929e139371e40243d49e8c85f0c" ++
  "ea8fe87c49ad12757a333f8fa17b209d19a3951d3cb9989b57856f9172fa95b3a0d182519b7a349e5e14c50991d6ebd8a43a7a8ba522d048a87783512c3fa47f" ++
  "5791413bb2408840eb2420bc8625eeea4dcb603e18a1d143d75855bc36a662b42f8a062ed29a026607f5d054a918cc3311f4d18de3028e1a6be9bfdda5964359" ++
  "66876672b720ec80621ad54ec052b371ec15c98b2b84dca5fac2969583ec29f21e7976c8009d99cf2c6e6fa16c4010f2fbee737065213bdb98ade2e423aa3d23" ++
  "864c0e8ee6ae9d924a52594fee84b087909336c5bf57b930b467840e2912af3026ac4a005ef6fd341a085516614e2ed3a1d9ab092cc8d1911b9e6e6a7da4f8ae" ++
  "14d187fbf47146936e2712fe718c8b0c0fdc52c1869c615e81428e2de447648f8e599aac0088c91edab831f826006f680502dd7f255d5e4de36b57ef333b02b0" ++
  "0088c40097d19e2a13df09e24c3e313047644172d722e943e0bcdb46641aa29f80d042cd5f31136bd536efb948b5c67dc3c088ace4a9f57ee1e3fc22864de69a" ++
  "8af0d2d76a953799f496e0f9b19ab0263922ffbb3db52db09db8e8f51cfa91f2f3fd69ea49d9dabd7f324564ebdbde3dee04ec923b4c86f432bcdfdb69972a13" ++
  "c72d6ddc569cbf80a18fd15eec5dfa9ad74b0c67b48e3718efd3b1b3ea8c16c077afbb272b94d3540f45e68dd1086be4210ed1b2602cbef6c31d14296ea0ab57" ++
  "c461b5d82cb1b41db4bad2bceb7c67c91d15f1d3c3ad2c82cc3e102a8b3ea81728c87937a901d892867208d29b3b72a5d5983cd77e35b7ec10c6af63e64facc5" ++
  "f4d1a0703f818ae8be1bee6d3ce5c4e7fe88d68ad87c8a60e7265f4eefd5b0dd477aaa8d26b115e7c85361724c50dfb5e3389e08f6194c4c3f7138aa07c9000b" ++
  "e91dd1f2590571216b13be692c4bfd2d1c3efcb09decd1048134438b85a859e73b2c822e3d405d1a55c38d1b9de1b2605e737c806efc4b06644b4c01ca0750f1" ++
  "3cac99e5d569a7c422fc7cf466285da68003c4e640bbd8173979fe15ce24d20ebbb252d139b4626b83c4995fcac967b463872c9b8b57f30fcf84dce62bc8c5fb" ++
  "96f8e4fc571cc84dd0cd8d134aec25f24db0ca6ef15421bc1b2085c17ac662983df5a349e5027eae4e75573715dbd4ed917ab1e55793b618b07213521351dba8" ++
  "8873d88e4ddab0dd13748fbdc5ba43457c3e1a3383030f9c121fb408d91545ca16867d90dc3ad122bc7a7f078ba2c19417c1a5277a4d23b9edee7f2ed6403106" ++
  "d8fbd42712a426180d986fd0aa4795f38942e1dccb9b7a558b8e084392b240370c2b6dde37c87c839f0e8a0bd6ed3c5262f230dc39c75df54616a701f794f53b" ++
  "fb29b5d78ad6d10a373bb5893f067c1dfd0829ae0b8ec17299c3a9ea0189e3388be3989ab08d8ca37990726d2ac8945f4c375919e6d14702fce26dce7bc22080" ++
  "eb6c189d88467461da3b3ceb5db59590d63e603fce7834f0049ff36665ed21033d9a5ef9407252184de65ff6bb14c82f28f714420e68f0a2b770e0ded4a9fb59" ++
  "93278d748e855b87d3fb9f6c645e4ac612f96e313d5c3ef97f35f7269224681a1f5ac9a5ae43875b2eafc8f3c40a740e665647fbd37695ac865d21e2c6425926" ++
  "017fed036146b23f80b4f21b4e0919c2cfce344ff94fcf7760f0c108753a37e95939f5a87d4f05f3d004fc339c206109fd24b45093283a12b0f5bab0cacbaf2f" ++
  "4313167a69553d517582820fd82f2ebcebc4119512525df0ac4760c9d35674de06e94cf5309817b57a2517548fc3c3a5898fdb83211fb8b8618983ca38fe0d05" ++
  "eaf818f9b94aa742096c15f0d9c2707ffbe9f2a4f6e2a54ccbb833b90585f509a4c2d68bdec0472e4ccccbe44eac3d3e07948d259ebe9997b48a69ebfa5f0a43" ++
  "7bc118af2a6bc86e89cd4958865749786abb32bc442f6b0a1e4bd7881a3eb84429d3a7b0449f5000adcbf9bd01d89d58fec5bbe825f1179784ae139c955f7e28" ++
  "c295b93946fc6c40feb6cc38a6265bb7a376d4a426ae8587f9720458f29f84e56813e5439240cc9188d47bde9be7a74e9685d2f89fac279577aaa52c4826b853" ++
  "37263f07147d4acdf625762ab8776134860144a24f9296ad33e311d27e1be3393fbb75e6953f040f7b8e14bf6f0dcb11fed084e929a7ea0f04a6ef8c6f4b65a0" ++
  "ea91f2c9256b8d9847764c164f1f66fb87fd40aa33f8f057562b2999f032453333aab3733b4da29019696ba512f9d177e23f935ef43168086597e539244d114d" ++
  "6ab6f6d72f8880f7435969d97b3647c73cda50327681cf4bd7c216c32def0f1ba07c67a0a64089e26669c7d1d0c87ae65de56c07ca66feaf391b232894b8c5f6" ++
  "ab7ca4b1757d0ffc84d9513db4817afeed82870b30acc7052c2e60885a4599660420eb37f1a0496d8b7d6922382f769d2e78d5b91da55a9fbc9a162db7f49fb0" ++
  "20c7d03b2b41dbaa5286d754f763e857917ab8c88f57d3d66c0a6b3845a9747ed8b81bcb7a97950918f76a9657b78c2cfb5652f7a4ad4bbd49d44e09163df2de" ++
  "979793d0db3740b5863f7f89fd82f2b058f2068eb37ff983d7eaab940779efd7f18d8444ca7443b7d0d4eda0a920bb82b052737505773d51bf7a047d21587701" ++
  "59550d5449bd97258e01b66d48fae7e438b3539c11f9fe00f08c4fdec5a0b36c57d1e8ebd00fc2d60a09b3e3c31b4914b039f4b44c636552ad312bd0528c4e24" ++
  "33c5da8488ee7369b6a004a58f74dadd837b33184930d036471c59fb706d65f0274fa84fe154d456449d40e76b2c7f4d4f83bbae64b72c6eb01e86f3658cebf9" ++
  "08752c2e712f82804640eddba286df5ce0a7365b7f728dc107d4c1e262f7e1e01ff89861015fd380e3f846e8d26e2b6f08c48e103719a5631f33080a85be2b43" ++
  "88999c2127d7a4057fa4bf6e47b6134ed05c0ed914afc1c8b6ca7f7fd8111f0420e13d0fa564b16b32d8c032d8020b982043296deed09cb61f6f8e97389207bb" ++
  "18ff8803975267c39f17e3aeed3a8e7c0ecde3d0ec07c5ab525f1a4a76d50e8fc13042206f0defc5867280d263cc26c6b5dd801fcbdf5a4ee42d313a6f4d99d4" ++
  "0f07bb93775d8539a869c1f45d97f369e3eda6ad220475e3187caea1102199cc26c386ae4205be7f5f819b436e1d5c6e59ce2c3c341e091381ba82f2398f87a2" ++
  "bbdf19dd09b6b2c97875cae0907aefe5edbfff8f5e29c46847f52351860de6559dca8d764112903f6cbc218769c63a9af7dbd578e49f40fff08a8196ce5fa60c" ++
  "652d1e25d7e31b38344571f32e06317b409e92194a755d84db2e601d7c288c016abbad6a4ddf656bf268c89c8f8ec52ea347ef7ecb1dd0b9f83945553e68060e" ++
  "afdaaec2865bb6df0991ffa386df20218ebaef0234eb714acd7d7236b52d721de65057a8f4ddd8072cf256fca960d28a74099efb4195a9222d4f23bd69e9ec73" ++
  "60da90e786f843316a9fa304cc4b980f2d384c8a05618365d0c8a49d52b169934061c337c7769af7047940bd4c321cc7f932b08e09b2299b88c7ae9003510433" ++
  "f636df87997ee0ffd1989c58de99324f1d3686445d6db502a54781697caf4a279c071b04f9b5d31d32f4a98374d3c53ca241d0f778b5265994f8d5d472c802b1" ++
  "1bd69b1db99669cf048cf6a04966eea3729546b3e72030b72ce8e9db1d1f41849e3433800997f2e9d7db5d1ae99decd8b9c95580d30448040f520887f81fc5dc" ++
  "4073a073ab713d6fc44363dba80d4cd7d3e06ca3dbf8e58d628537efb8d5f006eaf852309d4949fe7121a3a086a72e2ac6afe1308aef99b8836ca14db810c21c" ++
  "8c09451f618f33a82a0909c1f7899231dd6051f2c972a5c7b305eab425e2ccf89d8798d356309eae1ff7f6da14206ca502f5332223a1cb57f635e84477bcbedd" ++
  "0b79313bd4e21f2e652fbda3ecc92bd68202f333d1f2d25ce83e065ae97d0082a8f1c921d825ed08c93aae063c15e36ebdfd773b59a67fe07027b4bb142a67bc" ++
  "e9abb8a23fd2374d6295d23cbd4f7d80d15cedf1a432e3379b103e68459b85a9a62e9735252f4d3e5f6a161541879539cea4452f9a85d0a925589b64043fad8d" ++
  "90c9fe04c5bde57b4c8420082f9a3b80e80a68ab5e1dce35be6bedf40420c5e3aabe1e1e488635adfa8a325bb1724517b550ebdc79db167dba985fa7c2ceeb4c" ++
  "18788d18fdc1356ab1a64b81ab0acf2d3f32d8dc8792e06e00c62309c056047db3bab4f4c0f221215744c8f3fb56b09e6d387d6fe37460bf6880db074bdd2004" ++
  "db3b94ec77552f7e15327d19fdd21b53ad0d7b00acf7e87da8b9804b8da0c84162c853c6817b09ccc7f45a10051952e87ca08edd3628bd5a851813e3c8650373" ++
  "7befa45d5c8838ccb9d4431807704fe27ef8d57c55559e53d9c91ca2af6afc9119b7ed98690e5cc1ca6f80ea2b18d89220dec73d191df05855fe62d967082751" ++
  "4193acaa1fde9309743eff6fdfd68e818f380105a7c684aca1e0644352ea5d2775352b13b134acdbc256362a09fd550667c2c0b0ac382e3e789811b529160b42" ++
  "7c1cf955f95f290ab9ffdf769ec83de17ac3f524803be70d0ce3bceceb21720a919b143d94b848b1019dac48f739038f3f1552353215d0297ddb4c11baa0b859" ++
  "dc7c673530b9ab0976817432ec3de909e7b66f0f9e3d2adeba64267886f9e85a1c9afd3f887eef6d4748afa6144973364dcf8cc2d7b1ded17d494d8fd2a48715" ++
  "f2b7a5a260eb18ba40b92b7e7b3f71b1b255a0da31cba3a5fa21aab15437087aee3e25b2d1af315255b7991a05cb2c3f34c8a25c4a0ba8f3c41e5ec2a71ee8c0" ++
  "d427361fa39d3dad0d42c936e099a3c52ef42b0f4740659ce6131d1a8d9ccc3f5b56654b152e7d05757373143738cbbd9f5f7b78763e366aea73826b8ad6522d" ++
  "259086830af9da2ed9d6d7809629264434fbc2bf6444e952bb631434a2fb273026dc32ae0968a5d48b40bd704c97537766246e213f120dd522e3259d1aa474a9" ++
  "91ad109c769ef5b7980b1bf4006aa1e9e39042d62b774157b418dce59c851e66a061983028692d8459ca07281f5440079fa30a84e40b68f205e5c19f12dad16b" ++
  "b5b2a8a71c7914351fe841bb48ba9b4ab1e47c6816e84aad32d30a77aa92527860d0f2e1fc90f47e868211516fb33f921bdd262e3a03025206ee913aa5c4ff0f" ++
  "94c856829cdd987ce7560645ab2ff5ac89e0da22db08698b1431e53cfa06ac2e13138c9572ad7054a20404719aa6c3bed8afff2f6fadd8a9b28f0f800fa04823" ++
  "9b12c0cac6495aa2331196e87f7988bee3d208af0e655a76f68cbcab2bf272bb1e704c11c59ffaf3b1ef37fd2fd750c9791210c756e334486786f5d04897198e" ++
  "a9cd88ad4a9ecf002b9629ee01534f95304fd24f3e728eba11fca6e34e62b92890ab511576e83f45bfd43fcaf571e3f49ccb44063856a382266ac5eaecc32566" ++
  "084f32e5f05ac56ea603e4106f41e8f9fd1a47d56b8a47dc8abbca34103f296826b3b104cddd0362cb922eef7616800ac6694f5d9518d7b333d0b90d48116109" ++
  "7a4e354c3d540670f0f63af22b73df5280d8acf91207bda5ac3f89b64eef4ac5e13cdf972c7f57ef13188c5d0ac20b32cea2096356ec0554c60aefde42f8fef1" ++
  "8d3556645c0020a6781b8bdb17140061a9141112e7fbc636dcc269e63f699cd59f003c360ea5b092ea556e13fcfc8eb7b95aa8a48b3b394cd1ccd663c5061c7b" ++
  "679cb73f675075754bbb9a8c1b2b08858fce88a838f7f6be2ff6b2fdf4148cb046f2c6cdd5284956d9788ae1c8bdfad27d8ccd65fa2f955668a3b4e83f1ad8f5" ++
  "70f16d54a4a2984286e708085917fb99efc235ce6ae4fef0212b44d9724411724cc0ecfae523100d314e7ec48d1233e4b7adcf6c26c01ace7dc6a1d34b772a1f" ++
  "27e5256aad1955c8f1b68ff7da4760e7d2cfc50891c025f8ed79d8568cdd23023de4f7e5289612bf3a943194db61e5a6f405aadc05d830bdc2c9b075595e4f23" ++
  "f4bd9e0b81d54877aff38b14fe8bb7172b2ba49f5bb804dc9599e439e4bfdf68425bb13cf62214de90aa3d0e857359f455b68531daeb36ffb0be5589936b38a1" ++
  "92f36bb0008de383e387788a78050f1019b8fa5a78b2fa042133f6aada578d42a71bdae91481873ba2f2441b5355cb6652c93475b20b1a824e81d39309467476" ++
  "3632dec96dc0866fb1109376e99763d5805ce4682d6983d32cdc16cf14af672ffdd624461ad72181d2048e1677796e99f5450182df1a48a31563b5eda49a7538" ++
  "828ebb95a9c288a4b8ed67fa3e33116494c50dcfe1aec11e586d531dfb5678b7c36356e6deb44a0f17f3e03ffc8a07e86875b6c17d148f4b68d01ca9470bad7f" ++
  "6a6a63158c46cd85c04249f609be5c5c00e7369d487155a67ee3efbbe2259ee3dcb32d9f07c3ea876606d3f6f9c4ccafa107132e97b6d77996522742f929f12a" ++
  "1a98890e4657f561d094e0d2078faaad0944d3a4f952a0923e572e2aa30272f223578b446b5d28a70b7f959b409e622b0839b6b534c74bc5641ecbbd83a9ed1b" ++
  "1cf4c8f82865a84b4e5512e6a895b6a6e35cfcdf95f8d2cbbc77d02591e4d5d7fa4f0fe49f0d17fb4fa45df55936bfff90e95ba17f91f44f0ab403611f0f74d8" ++
  "84b803cbe2efecd98546e189914cb714411ba1b9c45541f329f6b607466054778e1e81308a1fddd9189ff66ce8ddfbf0d2bd9c9890b149fb319a5d7632e5ed02" ++
  "2b7c7ba6ec9a5659c3abaad9eef4aad25fc9fb5857aa1a685974c67ee5cecec7418c2a313d9d7958ee8b5fd006e83c486e7ed6fbe9f7e261efcb3120263b0f4d" ++
  "9912c3a85843a14700f708a8e8eb0901f464e447ffaa8dd968eeab8906e9dbbcc8909bfab609a5652d38f4fc2e473e6b5be33622f5134a9535135da1d976c5dc" ++
  "9b241bab02a160c5cc19f6780fdf9e6081d9aab66acb74da28de861cdb15fd9e49bfa68029024ac09be6d961706f147df6497a0f0f9d8bf3a1aa7a9be2d59342" ++
  "3703c1dee6aba9e868693b12954e9f7b56ff2ea3fea1ca58a817fc261793d35348c9507d0fb4adcdff644315212f3fbee4066727f7de6935b250f572e18d511e" ++
  "5bbce412b8521343c976f1f7e44b2de1df185a5fad7289f1c12b06f1ff293e055b3e2e3735b32e9c140a87b4dff1d779d5310c24f408c23d8e5f765dbbe9c47f" ++
  "ea91f920ec0d7f0fa9e77e65e050aa237663135778b21afefeacebb58196b06924dfccb34c6bbeaec7d89aa2a0044bbf0a20429f41f062de6c1688b28700b053" ++
  "272e7254c69a932034e479bfbe55bdca5648aef17db9e0ee950de0772e89c1f8ccb411f9de2109b23dfcf7a53061a3053f8e0ce07a133e626bec7072aaa4b96b" ++
  "c6a39a89596313c07f53431a3f49518b7341241ab5142b14d9217b3898159e7c3a8a862ff68664ada2c2443ec4b7424afe762f76b95749cfe517b3770053f752" ++
  "ef55280374b07769155da4c5054cbfd25a46f760bb707364a3a47c5332f5a987abbea439432ee263f42b069c29f789d2c797fc5555e042e0fbe76c29cb992a79" ++
  "7e7474f5ad6a7a465805da8b4bcd4828a66f806be20d0669b33576e2e0c8f7af0a6367ea8c6985ca6de4a26e45868c3cbe1fc657bc8e7509523931f8d9494c91" ++
  "ee8677b9a83be6433250f49fdfc55f529054a4bc377cbb542fb3816c9adeedf3981b8a8459f31bed8a336c92dccce11a6bc8b84f6ba9a9b5bf2a02ace55fb5f0" ++
  "592b2cf5a76314ff1d36d4ef58d77da350f1a6bf8e5aa2d2d6f69fc1c01e71f974631ee93f122282a0f8b5370bd84d98da14f868242933f0d92b76c9b103b2bd" ++
  "86fe24f85419f9d19287d271c40fcdb50d425afdc4e51105c2181e08ba9d001c4b012e51a9778b9f86e59b693835ddceaadce3a4d74b17007eeb2cf55adb8853" ++
  "3dc45cca6629a468f1dd004ce4c4f16bc73ef1194e67506c3e263bd5d5f91d5d306c6d01eb3b8f5785cfdd19ce6b4722e9a96133773c507833e940e16f5e43dc" ++
  "e65147fd3e2c3849fb071ebae2c1d992659553bb9fbc8ac149944db86419aeb384e74a9819e90be8a5f8491a1d46346213ce333f69498305d16e9b3497829811" ++
  "6c979d94f916ef3f6fa78d402aeada5bb9ff530bf09618299fac77ff09826514fd6635aa356503380126b2ec65e62c78cc638c190a5398bb4b0b1c62f9508c6f" ++
  "c1d4ba99e9e56e3d77836225ac280b62c1beffa349c6c5ef062383e1c0bcd1f9e6b904c70b76e61a49802306ec95a73c88711d0798bf3550d9c34bc2eff8556d" ++
  "dc90ade0305861f9fd87c4cd593042a8eaa862d61eb481b2dfe728cb0ce8bc968ab258d74d2e916cbf8b66a7a77f9456a0de0f9cee1953c9f9fd3bd0fb53903d" ++
  "9e8d40efccbb408dcefdb0d11dea9021833f4dd351bd36bc54122811286f6de4068aace0d682c331ce65937e0c1360cb64f9a6067145356002b79375759abdca" ++
  "0935847083bc7be4c022f528cbc464bb1987c0902e8bd83e9e5b5fb42fa85204b0b61155d6439470c2c17784b2ff387b15b508826950cc49743565e97bb2fa40" ++
  "7cca3619d8375b987d3af828c6f8141077d41000a187ad845d40bd1eb1ec6b82a43d0f375109d2ffe312c8b500ff15aca774a1e1f3e577635cc3d996b0437cb3" ++
  "40307c1cf50da948ce9ffd5135140e4cac33445eccdfc1dc4a19ae933b736e72e15c6f6b8897130ce893f7739537b7deb5af9cf4e2bd0ac9d914df43cacd71ab" ++
  "d3c68e2cc7acfa028965cb27776f35e910db4d7cb6fa402bea84ee90586d224b50b31105cca5ebfdd7d084eaba689f45533295dc84bf04c7a8e962861a1caba3" ++
  "38d6a57ef256070625a42e8597609fad960a47635dabe265286fc5982018cc0b4e7b6cbae4098293904befa3948e45dfb7c58676594f24886f535cd1db3b127b" ++
  "fb7ae7103f8ee30f0a1c9e3ccbc5de1dfb66f7b8b29103e526d205e2146c405a2af8cb660a1156c140e02a6e0d1770212a895e143b0ec55b7881f3621444cf8c" ++
  "7c387ad7d4efbef43df13d452a66ef906b390076176e8879bb8a6a1ff3f5e5c4632150f02de23e5b309db1f2f7805f9e6560acf7796529e0824d82360234fef0" ++
  "edc4c13eea631de36fe51b336967a59751c4fc1fb6dcb09bc21a25006fd5f88b5d5452b797ad01de46760ed0f34a16774cef755170e71555e11dfd2bd4828378" ++
  "895df11bbe726ccbb396fd0b8355f9110580b6fbeb26bb06778f28c533efc25e3381a00d1af18c95379c841478049382a12d1fe7005172a0c7b5796fbe9c59c3" ++
  "6392b2c15e636131270f733021bc0443914f8f4ad70c1c0dd1a17e7ad0a83fae49e0b9b7619532512416e0630b27c3eda950967557d8b03c02b3bfedd5b11ba2" ++
  "fcd92b7cf12613155a511c98d4e7cd11aff04bb54129905ba8441fa064b4ae78c06aefd7edfafbb3ac9c76099fddbd3000d4814b9ebe88915ebd5b6e671a012e" ++
  "7c0009f880800023d794e1c71f136d05c803fc765acd5c65c71bc598319f4364aacc2ecbfbad330fc29bacc6c46616b1410707cc87412b1d9fe319bbb930b92e" ++
  "d4fe3ee11dfc4df096ee32c802293f42f3d1b62681e660201df7ffecccc4b4c5bf32e6605e6b0c64e70ff6bdbe4bdff5bfdf930e025da232467ca47d896c7fd6" ++
  "b41fd0c6c49223b3a12f6cdc0fc6a8b5140d6d4df594061d3ec9773cae3ae40cc27953dc8d40fa4401158ac5207d220727797e0375ef78f1e7c4233c625782a2" ++
  "2204f30f60d9ef8c211891eaf1560b5e54c68616f45e67965fa0f40197579c8307ba2b4c4e64aa4142ea53135ab71524caf0b5524eacb8614fea37010ee0caf0" ++
  "3e101fd376e98f2235893b54226b6ffbb00dc1b612e6d7cd56b815255d3b902bbbcc89f44de8ffc0509bb8f2b12d8e2b903ba10728891464c0cbcc32962cabcf" ++
  "93e452b228b7aa0f48d6d4cb7069cc5381c712e42de88c0bfec25d423e76844ce3fd850f7d012d031726972512ef9e29712779fc8d653658367af69e85792816" ++
  "f43ebc34b8db437b6927f5b3376f8a55a94acdcc5b12164235eeda726315e75ceb636561d0b5e24e304dcbb6030727d2cc7c3e4067bdcd6ee6ededcd1e243d80" ++
  "5b92c36cf6de25befb3516c26e97785559880e3bd919c269e2fb226528ecd682fe049c8252ca7d184d74401b4ceef6744224d717c522cdfbbbcae0680637b718" ++
  "7a52c452bc73fa2eb1e1c4b7524884114f22b1befb416974a1b62530224c6357fbee819bdad9bcaea93671d02835443de8e1343c85c5fc02fcea02395d16ab32" ++
  "7cf48436e63e56694c1f3c51c5ed937b117efdbe8fa323dbc162843577e81cd68795743ab0790f00dd5c0c615195aac112041c6dc439fc02d4f33dd3f8bdbda3" ++
  "864845ce8448016b15496da1541af8e00b0a4e5866e90d7f663018bb5b195a9dcf3488412c17c7a92c9dba621fc3e2565e892a29f442b29ff4dca2e4afda4839" ++
  "8335bc519b8470988ded06ad3bae313c75d70bd6e01ecfbf5018f98f6a8d0d81a1354b30ae904be2555d5447ac02389ccd127420e1208d229160468de06e5792" ++
  "4ac609c77c5a664744d614535b9fa0bb6ebf50ddda528d94ccf9fb5f47a880cc9b27dc0eaa9faf312ea1a9b8df6c2feb50558e4549935c6357a763457c0c1a71" ++
  "b9270a9c0a3a5ca7befc07595061fb35a32f6b8ac222e9f26144c77fa9a1cfee9722be5e93f94bd89b58b0c52c9eef3d94308b81c5708ec74039aa2878710c8d" ++
  "5b200708ea77455f230f2c849acbc9eb1b518bcdb082319b8f28d9a592c174b3083da518cf68ace66e786b494ab7bf4fdd3213f6b3c4d8bbd5daed5dfc43d0e5" ++
  "278027ef32cc3d528c4276ebc0fdb3d3d7c05cfe3c17f33ad290c8905decbe02920a358cee590d7107343f89353f4ff01f60b2bc42f92459bfceab0c41f332ee" ++
  "de6da8e67f968f09efdc5610ef7305e9a4fe52b8b5c5ec4edec3d0cfd3f36ff8a4254b72cc17077f3e1e2af767e7bac777b11d5993579d6430c3c2c6941acd31" ++
  "a938df2e5d3fbf4901a4d22df10069a1d99f84acb4c8317ccc0ed97544fc3f4a958495ece2eddd96306d280e03ce1d4ec5a4fb56b33b84e62b0593bc29bc44dd" ++
  "6612177a8d230aabf4b244d652d500ed7b62198ebeab70662f01e4c324777066b0e137e0f255fb4d13ed4a54a278c89e3584f47909935f1f66dd573c6445d28f" ++
  "0a885dfe7b1b339fa2f85846bd074348cb859337fc1f4659c47fbdbe5f0ed5da09d90617b6db2b114dc76dfc89af72246b764ab6df11e7e48ac77f7642ee9e22" ++
  "7dff062012feaf3041aaa46412b4cca5cdba169de7278e66b6b9076dcfbcbadf54cfd64f4101f84ce4772a19f5b95205ddd68c85c27aee33d98d301a3c6fa63f" ++
  "ba560433b51f55e3c8aa4075cda01b58f79a8d881c7f4ae4b59c49ed973f626c3afa55bc380af8ec350ca2214ec93f46b1de9e8a39410ea35e58f0753785dfb4" ++
  "b7551f9b76d622b9a17a969bc3f136dfc36c077d8a86d9f575eb35c550a4c03ecb99133be78d6812421bda9977f6875df070b6fcff9783877811eebf8feb673d" ++
  "f8778c252dc7e276fea5224ef5ba9a0b78c072acc9fabea007d8d83859d5077f4638c365a3179c67c784bbf59dfb524d5367430debe76514c3ffedcb2f389c61" ++
  "6e7dd3c65d7f63c7967d75e672242a9448077fc35e0939774161429090c86620f9a35b593d56db9e6782898a4276188d4610b56f7dd8d9ec8e274a53780b3d07" ++
  "562bd82450dfbcfc9976683ee0dd846641fd5b15101f5bba89176bd177c8a37b32bdfd87a23077703d32034fcb73e98c0e45455b79e202c201e511d8e6c2304f" ++
  "e59549741e3591efe32b9d88a81907d7e9495a9b917aba2523f004c79a19b8bf986b1d2f2d0d6e437b4bf3ad33e1beb2bf3f8709ee5a1bd54bf58f5fe5c78066" ++
  "fd2a0a4c539bccc102d8d856827901781d6bca7566c16a2dc76b44fd1832d31d79f7763cc61b4999927a15cb5b914b527bf5f5447f6c121e00c0b818b47c05b6" ++
  "1950bd23c418f18f8386a017756c9d55102143bebc524c8ed329bf7012ec0956d64588fb1dca514b69cc8dfef82e304708522e4c46259e6708527312c5674fa6" ++
  "577449b85984fff39a5d878972894671a53ab45587ec6f38a2437e92e7b2137b680a1d45e1b6a81e30ef9dbfbafcbb11bb09f0c8b5cc56bac509aac461dcc84a" ++
  "4009e50734ef8424a0e41350cb7ec6e8b3bbd44396c4178158da5a348f5a1865e258ad9d20a3dafa74487e1a70901fb2fca0d1aaa43922394aebae0b191650c5" ++
  "5e4f0a206f67d2e8d32255dc2fed5601112d36dcf538ab891cb21b563b003295f088d70eec134b3399c4d3dd142b4092a97e54133fa61199e29d4a72374bdfbe" ++
  "e7aa23f7d8468372ee281468620d7ba7b339a2cb15d920b36f748a9c4433cb4e9eed9cf3e6531b9d69ee162c6512091c5ccb9f107b42d7f1370d77c197ce08bf" ++
  "6a4bb3359b9645ddbd010fc648a80057b9658a5d17bdca925d980aa32ffa48f92736084ab5f4a3d17e8d8e69619683a9e15f1ab1be5e0e3fb54d1eb5ad6b94d0" ++
  "e1313d59df51218903e650ec431850cef26098e99868d52e946e32a98ef6eb715d13ec0274608bde27404906591cd9026d29dd9d7eda4fb89cecbabfab7f257b" ++
  "b9446fb3214a6dbf50590cdb97cabdc418fe4fe0ef4064b130076ef9709ebc261b04c4b42d6ca48e6ea7b6cf9d92b7a9a317deb632b2d6bf66e97c41f3a96a17" ++
  "1da5bef54aa6b192d26e40f932f35d7b2c7dcbe10348c44f5439b6fb6fdc76537a244b214de527e27981046cbf9d75a7dafae05703d6f95400783231fc191578" ++
  "550e31321e5ed3ed44f9101a354ab71cb1164d95bcceb0292e6a0a2953844e9b30227db546c7d320c3134451601c167175cb4ade0f803414f9a599e30afff310" ++
  "6036a4673f6a33eabb53246571f42d3ac486454ed3e8ac406b22e0a8e4a706ea9c7995562ebaaaa525ec87c13e86911c4c908bf4a8c7d3bb6154b148fd279de3" ++
  "dd72586cfeb8234da7d4812e634eb1b71b01ab59c48908e550b43f1c97d58ba4ffc69c736b138344612b87ea3e1946540bf34f563288458fc35ea02e5245eb25" ++
  "460b6540699543ccd022170ce194808a642c50235f78995b030289d09245aa1c55be38508b97a0eec071f69274753fa6f83ebaef146b6944f75f9ebfe9bacad5" ++
  "497c8144931d63095d278780a99f69e093b9b1858f0f2e550e43db99452df4becb5e65ab426c677585ab4aa0df424c07a8c2620d20a909bba8c32c8055764ca6" ++
  "8ccc8ba76c2caac6f6dc96da726f32a0ed499490baefda994ace694450e6d03c20eba4720972fe5e15f1acdc7e8228d1fd2844d9c0f8423356fdc3a797c2a06f" ++
  "419e3b601a0b393cdf1afb63465a688f02883275c14f9c2be59c66b2b28bb35055e30def80f326bff814d1ad288ce5fa140a8409e12eb911cbb9cdf32166ce88" ++
  "9215794013265eee7b7330260d42f325d7561b11d655b428845562648a2893e7d0a827b977cc542d047ef842525006fe14835ac1dc2b68ccef6e6d624a433254" ++
  "4d81fff801967ed41e0d3bc52183f88300ed678222b1871519a618e43e6ca9c7b89e269825ad1a66b9bdedda89c054ec9576aba2e87ad1fb053239772b437267" ++
  "8d2cb9d9aa25c197f836db361d1424bd8a49f2a9cfa0f5305c6252faaa141c126ef24fd3397e7c33d448ea772faaa174ba28fcecfa91b7dd9a11aa7ffcd8b50e" ++
  "4cf4acd45650a3df74a98db09c112949ced7ea8838a11e22120b87db65fe073eac6b89dea077fe123e19ecb0659c4e01649af6fed7c8130ea0ed2884f0bba327" ++
  "b8c907b7330b84284e619345e5e5860af5a154d805fa60077978021d0f865aa33084e594cef2b090d75338baccee8c0333bef7c06ded7b94bdce4db3e741f3d1" ++
  "44ce36bb27a0877ef0a5b00d17ef2333530b82cf1e84b16680c53edf7fcadebd9f45deebaf2220aa1a13c350f5722f2ec32da8340470682e968e06ba117a469a" ++
  "0919b137269b8df21d0288c4cd287dcd76ca5305938bfb1f6960ce09a28836d3c5b5a8174a7fb23ad64e6d023bbdc90d1d65667150f14738d6ea8eb528c22f94" ++
  "72783f90b47370c3b11d435bda4ea73d7656a35e16f1239a9eb4cd900d25103181da32d2d29a15051c35ab13969cad46e8626ae52e8057e896cde4834010b30a" ++
  "335e6873a9291c48b606b5767ee8de8218bfd48e719396b85d46102e6f4d881638ce0309c5aa862486ad7fefbaf188769d682c3a6bc80d03ce0123f1375cbce7" ++
  "dac3f1695b11f14a27b2cd540738a3180cb12eec178e9ea212b31f4ca1df882ddda1cef819a88530d26a8f77f296013b005cbbb64d1d6a7ad58c77f42ffa60a1" ++
  "f036056c6877a98e909920914753ef1f3c411ce0819e23a071e0775818d73190235ed9511325078dcb845579be7a64df233d4c75d1078ebe6ea529c0ea8b8f28" ++
  "f0880485b3d920bbeddaa11412851ec43b1ca673485ffbed63bd12c1bffc405f2e0b0f4724a04188fb8816612f53d79b381d57ec9695f000736f90a6108b2fee" ++
  "b88a913afca969dea48e7da2ef6033707e29f7218ed576347b04233569aed7c7b16aec9adeb16b33ec03efa31038953a1a3c58514fe4072ebac5b5f56db3ca5f" ++
  "f2e0c7d985edca24487b4ed0d0efb2d5068baf19f4202144c0bced70228421962f6f212994bfa4f1abc38b067b04f14e5cf489ac6105119f38ab292c469220d5" ++
  "8b0ece179c56df4499147f9600037981bbad07414d686c17ca3a54d8ebcf65af0b9e311c543946a77479170b7b6420ca83cd9def1c9ac966693657838a11c902" ++
  "9c01144cede00ef07a7de9a3d381fbb48d08b14933e00c71630a2747b06106fd18e1ed93b6fa2b5ebc42dc80779b5b534ffaab2ffaea9814220ccdb334c3065c" ++
  "a2f91d34a5290390cc81b2d6e722a12832acbc6a3a47f7782253fe455470d0091fcfe164e88a256de59244bfb21f0becb5b5d0daf4ec47a7caeaf8d0af3f3562" ++
  "a74c1f633272a095a003b099c81792599b23ff2db77138ec0f61d09f8993ee234e6c59150821b12c3b267d78e7ef1bfe9c1a837f413e9f2edb09a9627fc86596" ++
  "dda5ea7fcaa9e4254505952b09125b6663603797c1dc347d391cbc345892bae4af9e89d03189d09c485b30aae9ac5234988a81b5f8e71e4f7f32652a359a4287" ++
  "71c430d59fc13042a6a52dfd9abd0255ade4e32ed926c9f9d42bdee24bd4647cfe514afd2107197cf8b4782cd0e461e42e492c39088e9e31b0b5bbd9a441e393" ++
  "055a90de187f57f1f2e8b481383b7efef350011db0c5c0a3ce6407b070af80df6fd0dc41d15dacab59833aaed41c66a3dbd1553ddb87e7d450fa759dc5eee7dd" ++
  "5d66a6894bb4faeafd1a8cd20b8e253a844ff1c17f65bd9ba0863ec56bbf754985657dea8fdf99dd8798ed37c5e7153b93da4dc33628cbe59e5f2f22b948ac10" ++
  "127e39180f1eca7dfd485df0f5b9a6187c70ce8383264bb4f36f0ecf8d0bec5a1c358e0b709f9aefdca5f23c8d637bc947098ac718e88982dad0ea861affa9d5" ++
  "50313c7c029290f3879f6ae5eb073f38f19e7cdc05208f525fd1d37a48b754aa50e46ad444c044a5e0274811d2e71bb99b052134c2d96f5fd291527997b32b1f" ++
  "afb6854dc79045e8f7be9d88c890fa5af1ba9701fee252a71176fcd49885f710e4da64861d3edb40fdc75749d19b90067442a5d0442c867cbf8939514da9cc92" ++
  "d28b610d2efc285811444b871ee5464b0d4dda959462f56c32ea22cca8f4576b15a6a01224deac01ab4f499e0f7dceba77b4a9327dfa87043033ef2e1cc6c5ea" ++
  "fc50a0f3c47ea68ae9b020fde55b76b5f153ce060c262e8ae496702d8e88a386d8d4d85995dbccb4d7a50e31062d4511bc0ba8eb49f8f9ea36dd2d1245cd2206" ++
  "3ee6d167230bd67a19ab82869b450a601f18bc4b30d71452bb8c65a7210548772423ed046922c33b1a0af486cb6736794d2cd68e5fcb25bcd3deab582ce23ed9" ++
  "e5046572b41c9903a6211d11ea02d9e7f910146be405f0502fffd71116001d63d6651d7ed2b9f468e3967ff869b706e7da3e9f47b148b7ed2a02b556324f7922" ++
  "2830eb433fee460c0e49d20f8d41b8b1de6684c4c46845870863b3440d5d230b1b0cfea8708089c9244713b0015af948563b0a1210cbbb10c624ec063d92c807" ++
  "c11e3799ecfd170c3063e96d4d4f46cdcd2d39c84735f0f3ea2c1a5b8de686af8e5ab9b743999f6e34e86e480ad99df5fd4ca8cf036227aa899463858cd4dbaf" ++
  "fc05dfa7ce4b228701404a5aeff7325f55527a782b671989452b6ef3a414002b9f6cc0a9a8ef882c97a2f64bba608406d711961d0bca9aa53142a4880a53ca7f" ++
  "49d12512a9792d46bd832f93efe51c7c2e1461bc75ecf764536062a8429afd65a75b1baef5c79ebd84e9a77c455ef228f95cf3dbccd6c673f4584b9b6e34802b" ++
  "8d49d40cef8e5bc229e121c05120d1a53b0f10c62ca6f9441a38f94439767dd385abfd71c6207d345b70c78164f7fc13a6a64cc83c1da2ccb1f0169702a9022b" ++
  "4e48fa0e16033093ead091fb105787baafb357cad8ecae5656545621d36696d611daf2dc3c2ffa4e5f183a07fefc48e5a523eeef564060c554280e1d62157fee" ++
  "0f67970f6da59fc125c6d9a8ce57ca27dcb1460066d315e35250101e979b65164670c6afdee0510aa8698b3af610a6cad557572cefca6d4df40d6904bdf3bd92" ++
  "43645dfeb26d468aeabb05f2cc89f38aa1a38aa3b090d89e5d2098db6955a3020644ebc67edbe4652e4c18efcdd543fb0c3dd5c8d25dc506dcfcfc0c26fc6a7c" ++
  "46222f6e1e9fcaada0f410f549504d042a3978481d20b46107aa6278c21d47584a17afce11845b4902d59fcaa304fc42430e1f6a9b5eed11bafdc48db755581b" ++
  "c5003c0564be74f6f0aa4744bea6691b301db9e55c060732fd76cb8ce6eca224c1e22016358d33d36a984f385b31b4f5c17d6d5f7b1e817b28ca595bb29119a1" ++
  "77b370c44aa27f0e9010e90fa6bd20dc336f8f14cb2357b02d8f272fbdeac9cf6fa2aa6bd5e9722efb5784f9d432e8c968a8f6e6d72a35ef13ad22b67f70582c" ++
  "a8159c4b256d8c7162dac513161c226c6929eeea2354cb753267bbe02cd19d27cb1b1b403594f517441689f7d1dc6eebc092d2531ad83531f86a569a5662e6df" ++
  "6d14fa135cf50db648890ebfd125532aa8dce5a1f1da5bc65711eb56092e4d0b94face0d8c3514967ce7b1045d079992ca66ee4692a865fbd8c90de66d7a220f" ++
  "029dc3fa2bcf4ca02950e81a597225bb94186c2ac79fd4b4ef5f1fcf9e79c2e364d23e4dc75680b6bda5cb947a033602db433f4ce9013e9d656b36a86e40521a" ++
  "4371a7b891a1fe008d8ddc27179f2578f9ba74813c93960219190229828f805129cc05fd8ff50b6a750c52ceafe382f2ecb3e5d761d5f195905d0796431b5dd9"))

def items : List (U32 × String) := [
  (4100775, "" ++
    "33649941e14b672983db8f4f597eb0e60bd1cdc6f1498f1ab77436ca32c912d8fc61e78a4b778a1331d9c2fc33425ec5d4b05074825f4854c657bdbed4f9b998" ++
    "5fd431910877aca05844f5de32ff2bf6a6a0f6293d0e1026dd9ed6436dd1e4f67dc442bd4e408a4f827e68070a51b718f458f76ddd46b4f43f97e63f00a55ea9" ++
    "8fdadf260fbb3f7507df8ba8a14ceb19b1d4728380768f8eccb48aaa1ff6ecdb6e8548a3eaf1fec505aba26bdf1d9e416ee3d8a70183ede65820c234969f3c21" ++
    "4b6557865ce2f77abf08de4758fd725b33c3e06ff6f26e3182426d139e98c646b85f89cd4f45ed534672c4d3a26509d8fa630881705db965b7db5603542116f9"),
  (3587535, "" ++
    "dfeb27f419dbd32330bb61e4f7bf4dbd334f30bc740b11c46ef22036911b13ca629dc9ab4f3138da5577f607838af3e2aabc45e4455226bef920f2f4afe88fd8" ++
    "89a73c790a4f445acd14bdcd4d97cce14f878ed4428be8475288de1915ccfd624073fbda86d0bef45d12f025ae6dc99811ad475b937ad4ac9680b5822db331e0" ++
    "831f04465916f449af774539f7ca09ad457f792f346f3a7b550e2301176397795418f6d8ad905283a791ddfefdf0f6c263800d9015ab9f52e9758401f4be9866" ++
    "8598cfa4dcd3eee5e173e28c6fd96bf56eeaf184d563b2fd6be9ccad65982c7b6801b58ead9dcb1b7da29bd92e1173b55d6a82394a4292313bd6c1c01e7c87da"),
  (36224, "" ++
    "c37bb2295bd78c67fbb82b3663f88f6c5e5aa09f1af0533b626b55cbf0635fcc866d278c1719702a09c1df9d39645da8a8531da6fdfe5c50e267fc2955601cc4" ++
    "e4e9b9cdda8e2c0cf0c6adc21ac969c9a21df37637a89d0c4fd3d989284e3f1eb1459d030a087d01bc5c2f9ad256867e5085aaa86c94d840085fe2b17c0d48d4" ++
    "392b7a9aa4e28e27be770b604d3cdecfb781be5e0ec7d61ff6ff9d7c502aae975413699a509337e4cb4a38ca18472aaf51af92f5c75c152622caf5a7456dd639" ++
    "d960d5116add5dae92941735c4466d5f5f218924c00bd7673dac02558f2eac053c3538d00aa6b5668d23bc3c41ca6b23cb98db8934f4638a266915167db2f61b"),
  (2422424, "" ++
    "34b079efb6231ae6dcaa0884a2fede9cc1ee83c15cdce29234516f0937dbec669a36f832e161f9fed8287e8a1516a596e2ebff66058cdeb47c062a0a8a85fcb2" ++
    "87466e23c2e3a150cf21a994351809b0f1aa95ae46741cfcd30094fed69c41f4c7bb1fb369e9e33f6d4d51826ca1a9811a59099f1a7c52c0abc6076211809005" ++
    "a581c4e44750b06a60a7deb5396a4baece074b2948aa01cde41fffcee73acb8679c8da4e83848d74f40023d5a81678025ec8e7ed6e523ca572c5ba2c637c064b" ++
    "8ec9c591359ace1211e45e089e56dd735ac58a46fa7050c9f9f291792625ed50316f74ca4284e777617e9c1031c407222824e1f6dce845b5a45d2c9aefa85df7"),
  (1815239, "" ++
    "e773f33b4ebfe25ee6ab5bd852cbaefcf410e226b01ed48df22722cdd0284cd80ced42b70856517f37740536ae1efefcbd548e479676e1f2af03b8690c7f7dfc" ++
    "b2d61e22c754c9ec064d53d013be8d0509a8c2ec4f01351140ba41fb5c1e3c0af097e84c08a403c7d71fe05ce0a56415d22a1cd253ef8d813b53f52f97917965" ++
    "faca928cdf1caa6731f0ebb482122ce8c4f900a139ad2965e7faf92ed87bbad1fd69a363dbc6aaa59653ef4a5cfe6e5a2ddf665a8d2edb0f68a5af46174eadbf" ++
    "faeae1de09cd75ca0809a32be9c1a2fe1d2a82cec7c1b3af8effb40639041be4a30db508264e779e9fb39cf6cdc1671d3bbabcdfa362e902005766cabc80a17f"),
  (1676855, "" ++
    "74b07d13cbae1d4e4530d81802347c7fc12a90f7e23413d1d6bbb5c594f108f374d0e083b1d5210ce4ba088889d19b01a56a48944e4ad2224cccf295827dc6bb" ++
    "72dae127e792a641c350d84f2011da41a330f90959e5fd90e2b35c275730b28a145b6e974793df658527c0ee1b8b116619463638d3cc49ebaaac44f615c81ed9" ++
    "57e06a89ad5826286908be79631d02039442c78e0fedb3fab8bad03d12a0df521e3b7c2cd8133a0e03295ac3f90d4fa80ea671d61e5901ec47e73f1f431f7c44" ++
    "b378deaf4b0a32bc7e047280074acf9aa1a29cd3811800583936a63986e684295eed47a525b406a01f8862eb8858fb1c30f1f5a4e839482d968ac66c6660940b"),
  (1764003, "" ++
    "d9dfa5314a328b1679d0ce923614bf8d1afd977240f019bf104e71216c47c16e048dcf0a11f8289ad4f0da76878629340e7580c81ed40fe808c9b39415d11bc5" ++
    "7f465b743e058098242049a73583e19c882e049ecb06263831314b4a0cdecd11b2e2933a299e1234b5452f768f8677edf06bd77f6ffafc1fc146c174cb632e2a" ++
    "3b29a8fcd8c1424b17424b1bc00fd290c0d0207a8d37184fe4827a1fbe5fb1f6d4963c4d0ddf1ad9e18f1ab8b94220a6a45b40b3dfcf28a4be23323c9ad35ba3" ++
    "190736b8efdf047cc9f6e2d05248342cfc8ea297a37d251ccd10c46b8034fd9175fd5a978339c1db67341c1a59bdd44b46aeb83b557d1c2c82e337675b31608a"),
  (353889, "" ++
    "457f6da16837b361671c33fb2bed81c8185f6e81ccc95666a1bbdcb3db8b212b0c90ec794555536e21355fc024be94cbed775faf6d012a4a54bb8bf38626bb41" ++
    "949f290ecc2faad629f6ee263325cc18abd348d5ea95243f2ea21ce640c61a6d0a697b846949dfba7ede8c10807337fd635a66de6f83a2870e396dc9327888a8" ++
    "165b347912ff298abb6c186c072f7b54e4424743125e814a8b1e2c83bafee72b9827b1850cfe53bbefc60bf714bf734c7137a863692b799bed2320b251769704" ++
    "a105f61e728a5a0e4c286a336471378d99d2485aefc65efd491f0e9bba47cce909761824825d8d3af599471559ddf5ed56f5c110bfc9d1c38b9486d34f17d0bd"),
  (1753408, "" ++
    "1886bedcba0abe1d35394bbbfaab209b57f7ca5354253bcf8739fc35aafd4fa699c8bf86b94dfb3544f48def06629d6f775f02cbdd730675ad3ab165465ae4a0" ++
    "d5be85cb19805e644aa681b20dcfb0d05b02e16ed4d989777243946484505743ef2cf7fbe519f0d51bffe9d74f0bd18d8bf582e74c6b792ca27e0fce4839c20d" ++
    "12a3ef44b3efd81534ff02c73336a48351d6148b766e0430a5118a121953c4e33faf679471407a8adf9b6a995d13470f70161a5e42e26e9e47c909bd9cbb5a0d" ++
    "b2593bb7e58a17d96eb688c730c4973c15cafc1bc6b834a62e4cf7d4ee351e68a3e775e8805a1da21bd208ecfa5d25fb0b614b52d699aca40382b5397d5dea20"),
  (3615735, "" ++
    "5e938bcc06c0330dd13720d3fff5911dbe4c6aba41a46cf49cbffbf5733db35c9248e838b363d30095fb50fe9925d1651ac011e62d646d3d13d8e2949e9f654c" ++
    "013d1ee00c8ad7004843313d712772f38245753d59d2448e9a9493d832df9e287551935ebf5f8c303641af04f8cfba0a436b02327ecf63d964a64544c8079cb8" ++
    "9d583b3e52a1e1b45fc01ebf8aae476f7fbba78ee8c7656ac782d0a576c6f9be72d92315617c88b01af177fdc9f81c1df5b2838b444e33e41f599ace1453f271" ++
    "daa62b2d8fd857d5e72bf9453addf32e3adf1ffb025206c84c1bbea3e80d7fd2184806e06e1863d8408b89041c64a90418811f476a2412836ca2ac373fae5a00"),
  (2168990, "" ++
    "8d0795f301a97932c0b2b1a386fccedc19b8840847cbe00d805fbe37e120f95d9be6c11fca80c61f1602988924a075c9ca74434a924a7997d2cfd01c0aea720d" ++
    "354da7efb13503516414bae45dc90083be393628adb834b2868ed552f12c017fc0d72fabcb4d34ba07075933fd902867fa08cba094a40dc4161e0c20391454ce" ++
    "4ba3954d27adb9394839b3a70b7e3ae9e0d48659cbc82497cd04f44f22e742b39590067531b41bb686b449083275bfa2ebe7414c964fe85d4e1225cebd35ac66" ++
    "f66f3c9e9cd19f59510d190a1967d947aa67419505a85cb3d6cc09ea1192fd113f8b7adf06b75003f789ac7bf24398cda1a520a4cc32157ab5b381c5c9ea2838"),
  (405362, "" ++
    "f59643ac13dc0e14944b912c0683c632d0bb48f29ef72599ec53da4ee2c451b8066c8246389540b6258db8b23884540741f7fc352bb5ed2bc2e1c5f1a4fa59df" ++
    "f68825eca7fad53e5dab5512ea0c709ad3cfc2054616d6f8c49568810cbf4189e27f30aa0f0c758f5fc068f159ca4a7593da4206697c6847d2c9da94a9d1f8ae" ++
    "2b351b6dd684b2d2fb87ea34e5bf4439452dfe193429118f7b98ed284b5e644fcc2b428682fcc08164d2929f9a63285df4936a1bfec802b9933d2e57b3b006b1" ++
    "30e1e3a6b4257267dc2e3a23436f0b4dc4a65598c970fffc8122edbf6e6bb7a6b711a4fed254e4b47feaa72a67e7d794791843805a18171a08aa942614368c4f"),
  (1769025, "" ++
    "6866ab9b74a43e8fd6f89fe68d553734c1f5de1ce7438b682b1990f32aa10b94dced82e09daf86ed5b60ed8fd33d08532c77eb1e1237efee93a9c84a6c727e33" ++
    "076ec58c3f623a27b2cdf3dbec30673af8f102aca9a54a3f6b033bd09f9827a7e1e68ffc033aeb7132abe15a241297e927f731840de109408be1f042bfee8712" ++
    "5a189b64330ba802821bff74edf5a54313f3bf20a3f5955f25462750e72fc3f73dc311c1a50ba68e453dc459e86863b593fefd687c11e92f6e07845f10aa0ed0" ++
    "a3ab5a66949f2d5e8db701e9ac920f733984ef2da74d979bdb5e1922c67e7f2e278704645b66e8bdf97f14fcc009d66bd2ac95d6ca12e7f9e19d771bdef8cab9"),
  (2454265, "" ++
    "acec5bdbcbcdb01cb36eac488c101077ee3dd79954b0cff6520ab617e20c6769284dd2a0e7cc2ccfee204dc2a6e2dd976617f802c266a82100307cffbde056b4" ++
    "de65a1a779043625593db8baeb5ca6cdba63eb7c30b8c3b71e59f4d4c1ba1898eb330b2b1b5e1f45214a32a2f7bbc5bd48a6c9585cbd5987312a329cbf0a6885" ++
    "d8edc2a520ca32880b4f572bec6d4303d70c8cf364a3ff130789f84dfa6771aa5cf1ce2ea18dea0b51185758b1a0b865c6302abc40e776b529ae2ecc17a8b02a" ++
    "40d968fd334b9af316cde6d54318f292d00f989f02ef30e73347fe78c08f376df40de569b66788b5ceeead2cd5ffcf160cdd36ff66738e9037e8834741e6799d"),
  (1874876, "" ++
    "ab37a3d4282c6ceab41de0095c9781881c5efbc0bb598d5efa7632f59af038553be9ed396aac44641b31eb215e4a139c3fc62f02f5411934880bc3964b5b40a4" ++
    "861b1d03466f53f04f6dc467696cc59344383c2cd8bcf402ffd74d6b8d68263fcf7b74486d17f14b31f292acf99b12f5e1d7bae2bd7021e72c08421c620a7e83" ++
    "491c5e091987b421ac314828a5cef0d3644e2689a463c482f5714b7742c1b95d800a86992380850825832d4d581a21e8d8459bee1a2e320cfc5f56bdaa33735a" ++
    "34eaea61a32d871d51877352b23494eb3ce77015be48d81bf4b8adbde6be3ccaf35b1f53caec6946082e253a5e3fc6336830ace85bc14b34f696a9cc3e9e30e7"),
  (4025545, "" ++
    "de86ba38893ad98fdbe6545fe63e4f70e5e371e00be3c9f0bf43c115e0cff9d25e7c8075c01a369a1ef70341927ca38fd6fbf477eb105550f1a5b685db8f53e9" ++
    "777ffebdcfc6885e977892dc7ea67fb2338a10426df2b8b59c3674f499fb922e457cd8d8f001a505b8133fa2979f0317c28095df3a4c3c9ab957e2d6fefa974e" ++
    "cb1a4aee0f11470cbba1607289937db63f3fc3c193426cb4d0fb8adbd9b5a4c116d960669a4d479d95020823f1226aa335f8b48eb201b1ae137f6261647249af" ++
    "1d8f215f417781fe7a0f22afbaf59aaf642e429f3f86a4f0c0a3feeafc790ebffdbcd1eaadb0b85a18a21928db1c004fb16104516f29fa9a9d37561a02946109"),
  (3908594, "" ++
    "45403679c555ab2e82a4363e8fc4761369d6501c4e96512d539457aace3d5c51f2045cbd70fee5bbe396d7e5d021877b4b51f479612f5d8c9a98f8053daeb58e" ++
    "ba9ac5e6a09fb76397fae2e6afa1bbe26acf882f083d6b8236a1b44855e4053b032621074f70ac6758b9396ce761f6d56078af649c9625acbdb1a525e8a37be7" ++
    "31e9348ab9b55ff80244e7e99c629235ab0caac28e268a967468f399abc76e14731666a28ff84f091c46a4b5bc496fa17372951d15629b7e8c72be1b4698caa0" ++
    "b3b5eaed2963820d133c67265d2a12a25b517bac3e0c61c91dbfbebd1533c9a42f9b458e95923d9705cb7d9b488c6794f4e93227dfa7977d9aad3ba993386ab5"),
  (2562867, "" ++
    "5a245258ed3b18af9459f3c27a1b00bea747f76145d98d624c94390e409dc1307fbe1aa38f4207d7f624437c564b737b996d0531be033375c6a8cdbabc95c206" ++
    "4cd68234977774c99874a55fc67953592fab1efa71ae704f43ed93cbed24fcb9486149ec22975063863fb8db61562b089e22a268a8142a405c1bcd9d158891f5" ++
    "34d75d5a2c07f996be5b9aa38e54f27e3e43c9d73bc6e85182493a3f18b1c17d9e8c2791950bc3dde911cb7bba836d12f20a5b71687a2dd23a273a812f602892" ++
    "8e20e95c52ad993346c22e2306855e4ffb97a797c1fc36e48af01554c917ad92d88a0eef370babdc58d62c2af3a8484ef5fe6c5b4c46fdaba42708d42ec266e3"),
  (2649794, "" ++
    "076af74cb09288fe0df458a0dcd8cfce6aa0db2ced120cb0413c96f68f8c530dde64922c6fb02cb655d34e8af726a8818695cc90c56a01f5dfcb4385b1a424b2" ++
    "13360e6c53bbd6c7789a7a50ff109e1ee106ef7adc4286a3760e3452bb184fa0ddb86e01ff87ad7a076db57884ae47ce26c163939123339607417f94b281aaa2" ++
    "3c75fa23699ae4a2755329e4ba7b195e600176f080246468bc60c6c3b9c7b9a2099f80a595b0e9ba73e69dfea5f1f9090034972727200990ad80fdd9a787813b" ++
    "e08f00b71a000930fc69d20e39c44e30b1f4db1d79b69e37a0cb05a27d14350492dc1e8e88d31b30d97828ef53777e5a2e7b0fd19da81114f54be75602c04c39"),
  (2960131, "" ++
    "1e1f660aa01155ab34b2e7164f664057c4b5d511ba69dcf8d5fb7a4d82d9d2328256ecc7080a0f2fffd53d5ff2bd00a0d955a77f8fbece09c5c5bdd400378eb5" ++
    "34b99fd26be5e68771706df62113df353e657c876bb547eeb8d5b1aca2c6fffef44ceafce60a399767bac368d22e6f00ec40e0caaecd5bc543d1e7656e20895f" ++
    "d15f355a88e222c799a4db2ed8e9fc1ec4ff14d3f730624895c9fbe43385ef6ec21bb32b0721ea29930aae4d24a2ccc223d03071a93ba4197672199b3ee0f1ad" ++
    "c490bfa529bef0210ed5c16cd181598e4ab038ff7e77bf048824b35fb088272dfdb1828ab0147cdb84f9e83dc5df486811046c5aac254e3145cc2527beb805b7"),
  (3496477, "" ++
    "bf123fa24e7be4edd5e0ac8457b1ff9dcc7c524ff0e47c7965133585fcd887b4d829c78625e51868c0ae2913de2c33637703cd4acd154aa0da59a73c35f3023b" ++
    "304e782f1543377d121bec16bb275e570895aa37c9a4e81ef7d76772ccaf88d820a09db93c15b6d5318d68d632b8b3de09df51097accc9a3505bbfc902aef6c4" ++
    "23c55c6531269116c16c945e625611be6a37c6726e92420082d1224c923cbb9e9267e54332fb0845205952ddf0952c76ea22c36c05295ea9dc16a308f516bb1f" ++
    "3288af4ffed4bedd4b612a94ae6550c83f7a9e4c8104f4a41904b20b27050860e5c8c505bf73744395715e3cca22ff658471b66eeb5b5705b64fd759864130a1"),
  (3445117, "" ++
    "6bec41c73a8a03719e9b86b0ee0adb30a6369ee0411fe615966e246398c03f3600d9aa51af65b7dcaba573adf609e2faa90c0875eb65d2bc5447a4d5089db32c" ++
    "325e6270679e48d742a679f50041d746e247a61213f5253a4086b232f0ea882466c554564299aff652f358f359fd29b455f70e30ff99691d864d13a71fef7c62" ++
    "aaa71ab6d2c7fc42e1e726159b681dbdd1f96fc6ad1f83b56550af1f282a0644c5e53f81af1e3f344e94dcffd71bdba3cb450065e306e27692c322fc3a317a5d" ++
    "5548531e5b3007738827458fbc8a5fa3b83e7ef8657135f4151125ab0d6dc95b11be9b73e79ab48500f4812429fe3f661b3bdb3a764b93f293220ce07f063532"),
  (3791569, "" ++
    "7631397c63e9f2303355c29e1927544063a84fcd8c2e27fe0a5c2de4633520d4e63ea26ea967cd88d859a3f572477005a5d13b7b934d11ae60ac5b602aecefc2" ++
    "91c18ed7dac4f661c1aac8ad6ed46773a2ccbc7820efd0eb7c91daae096193fd4911974d1c92643a734ec394f1ca49d8dbb8b5cadd4c65e0adecc9478bcc91f9" ++
    "c61a8b1e781b0a12f6fdd07efb58a11e201e1218fc7a21a39ddabc797652110cbde4a3195aed616355b27deceafa45c6318177f52abb4711d21a5d572ed37602" ++
    "a0e0e46ebb7e319da9420c52f3a68b6d49050a31192349ec7d3a5866438e825d7480155d78d6615d5f094baaf7ca9c5b23f9846f87b3f5e0d6d9a095aed0d606"),
  (1203534, "" ++
    "e267fc44b8ec72b5c6166e79726f3af56d00c9dc428197bec8b42a2c6cf95240124c6f2a790594739988b25937877c2592898bb29b32a5687aff75bfcd1553b2" ++
    "8a77c6b23722d98a4c1ac24913cd2a7db38e349d7731b23d8bbf222b99edbdd098fdc900abe3332609b2e82623b163952947b3a065c7b57789dd8cb970fc23fb" ++
    "1e598922ded97d1400932fa8b9e2c66d3f1bb6b94352f1881862cbe1adf94cf9fa6538e3adb40610d07abe827e2153ea3c8a6217b3bf3e7f10adf5923f07db0b" ++
    "ed53084d0107bbcc9f77f6dacb9bd3a2a994e149451e8907340ed63171a9478acaa13ec094a18ad91ec192a99d05faaf00e939e8506b5cbb32ade3ff8048ba50"),
  (39553, "" ++
    "95d7627888f4bfece67772badd40b366d16db255c06af3d4d651e02166db209095c15fd09682e5b3fb1546abf83b206ef1c178d3b1bc61dea12e2e78945017c4" ++
    "c49d5124f593e86d8632d502bcd907a3d927aca5abc57a16df304c8dbf1d780d7c27276a89ccf6031ffb9b640b1cb27c8bba100a9a11d72b4b3b3867dbb81789" ++
    "b3a8423bf66d90d630e737ed2794a28106d4b697aeeb23ca5ce70baed4a0b1d844a2dd8a2bf8bf79a2a18641df2b4e3611e1cbce7c1ff987dbde6b10bc4656fa" ++
    "1a662b172510698b56d3e74b56a0df6d19ef2632be79a57f3f59800b5e02dbb17dde28f5372d0fb6936ba54bdc04f9bac3be555646661d7f4e759ce3a258f9da"),
  (3751960, "" ++
    "bc5476956d81a6ce7b9502aa37ea46140e2c8230c0dc1f76c56bfc2e276435692cf0c4f6ab949bca4b000e9966c586b1b2adceb52c96d75f833bbe5c1b8f4377" ++
    "762fd15871f3845250a6227acd44e57626261702b54c6c18695162d76cf04e6cbe22ef601702c726dacc3d662f90066600229e79ccb885c1fe46bfaa2b8dee21" ++
    "d7323ead74834512283c488bc020ffe0711d4cb7a6c91376d863698cdf8e6d5e1834d322c4e837767f8920524b34126637f2d14b3c6ad66e2643ef4dafa8a833" ++
    "30b39f6023efeb45b2f831b0c020f8b6636ae6323037e7c423ca4b1785cff8c7404011a59f26537fe59ea0e77ebb480c93f5c92ea82d0c51eed2bcf6a72ee709"),
  (714722, "" ++
    "a4057a712f1dff832a6c68de9a67dede0266d57a46ed0070af6c6b920bad672fd7ddfc8dba67cd760f7adf4ba6db73c4f7a1fafb30c4b1ccf1b28d719946398a" ++
    "38b3e439ece7121e0d4fcb55f9788140aa9ef376ef447a7e288a71e95f0422fc421f011db0607ff3feb0fa6160b7ffede2bae50d33173e3bbb4a5a92a1885d2c" ++
    "a904491d07dfbf480a9780696b80612de79321034080aba0a433ad190acfd8cbbd2c1e1e51af20abffdb97b509319a113f28534ea8fa7b9faebe330d8d13f708" ++
    "23659608bac629222dd1204eeffd1e9d71b0cda475258cba47993e46a3145ea0c11ffeea2a1bf5294f8b77fdcca69a5f844d952b7775fd3fea2dc7d9ea756370"),
  (1767068, "" ++
    "8fb9b84d193b26a91dec02bb09b5571544c17cfbae5c4d36696375a1ac518a291bd80e81b4f2f0fd6e750b9607305daa0a464d5da464e3b4c453de8175dbd7ed" ++
    "cf6f4d4ec41576e0fef6d7c1d6343431a4ce109983ecfabd57a693b554bda024eaae1e46a5179cae163076c11f836904a6995173770654f3f896a4148bf1eccf" ++
    "22ef6f90518dcd72918e33becb2ab70094d8a94e7b936e5af0930968187c9a507edbb1136704ee26ad79b00ac16faa19ab48e6c61c23bc2da7c913e9b7819a32" ++
    "64bffd06d1f670d87531bed2c5b7f865c7099795901f9645523698e9f6ff50ffc867e4474e03f378979b9eb5cf696971b9baf0bc93eccea2a327914241dacd4d"),
  (3326107, "" ++
    "4e87add4ddb9b714f82b418966c3bc2df78c99a4dc4c4d33bc9c806a2c2b5b06ba873f87e477fa9f54462ad740f7303c92b1e5c08a11ed3931df6729d3c33a42" ++
    "148785bb9ea2bc0a757687871765a4dbbf73fe72468c268bb8e3e69b5e31b47766063918d587fd9d608b44c0998e1a2e4615ab0bbf12bbafecdb764aa61f3fd7" ++
    "b82062d6da5c11bafa3b82aec3e80bf1cb2d20ae47da3e23874eb020ca871532dc3e8572bb74f0fa86eb6a444c96c4d883ebf9ac9365bff6349ce4e76d926c05" ++
    "7ed2583ae3e8454e8443d70ab346cebc35bba89ee67ae5a25cb6f014b8bf6d5fedbe6aa2ea9b1feac3aa0d4834ac8870a4ac7b33e568d455565233fa4405791c"),
  (2641926, "" ++
    "f3e550cf03d15f6c69a596e84581c65bb396843491874dfb4d4d89d98a61c4e78d6cf733558ad7f46bfb22466936bec5f92da4b0b5b233ec9627fbca7e7747fd" ++
    "2d2fcb0d89297363ae6aff7d7861b1defc1d4ec3d5e96bf9cb80d5471c983d746a02c8bd90d29578550604e20caf685cd85709152b107f35d646ba61c44ec540" ++
    "97d03983663b875481ff2eb2ce623c3453cd7a097e4393c3576069a517087f5c7a79f9125f46fb2bdbf80fd90ea56ab4dd2b58af3ec8b976277df591e5c652ce" ++
    "f65c6cc71febc7a3509d36b66e04da54f14224850e3239e53d50e2fee3d25af6461e9ca17e5db366861e47915cb53af927d6802801a078cf05713fe3a1d55b30"),
  (1147890, "" ++
    "014eb43f9bdd704d8841860ae95c10539834856b4081be36c21bb7644bcf96174abc87490a97f6490eda38cedd2702c60ded1e1f0a905f6325c4bd88a82b15f9" ++
    "af09c83d5328cbad732cb1e9895123ced501a68524f609ac603673fa64c1289e4fa64601457d2449abe6701e83c1ce01ab062fc167bcf0a815defce55f658104" ++
    "80e0ffbf70b1fb797060022e158fe26fb353e117a3c9ae72f9118e672a3c53903630d20c5f6eaf1e73a88dceb2d7f2e6dbc1a16cbce6ec435e9adb76087d2b26" ++
    "5070dcf3213ab6d8f464a7ce0c621dcffedc7eddfee5eb53045a6dfccb46e99e4c8360885b70fa9c22bb8017eada46587aa4f142e940254322e8f0f6b81e4b97"),
  (1074153, "" ++
    "b687310d576203f5e7cbaefc1ef519523e1c27a20e7370cd3390e7d577d4629cbe6dfe7c2753125835aefbfb5f409a70bbfc8a98f1ba4cbceaf7ad5e17f6a512" ++
    "53ca44f117d5788a435f79f9c5995cc18946e2cdc9a6da5ee2bd414e374fc5559efa7bfc33f194086d124d3f7619a1973df62e26b8c724335dfaebc52a67aa13" ++
    "2133572be449c999c17d8291e8a8ad7b6e7f651e0622f7453da98c489385243fb5101d82b0cb33a066f98eb08e02b513290046689d4b7dfd90b952a3c15bf93f" ++
    "879b4b2b331215e2298ebb1b555574de38840b82f6a5a6f0af8216464fbc7980a07c9a5c94634663b6144e62985bb90bb39862cf1965ce59906099ab86438064"),
  (1259504, "" ++
    "a0404afc3e014f64b4d91024d24e192151b0536c413d534130b69df40727ef7ff5db0fc88b7e11b760eff9e6f4fe17266deb243f7f4a2f101166ff38f1ebbd9f" ++
    "723141a35e2dc161fe677721330073297da15f06958427690c390b26a06ea80306e0e90802d11d3f97a161d9da6e2a331a1b5499c2d89d401a47e93a861cb9e6" ++
    "703a13aca055c79a5ebb097eb35b4f6b1dd2aa8f1704baa3fa0df6cd64c9b03d1995aa60d46ff6de43a812acf21c5fab2b99bebcf9440c6f61d297009a385431" ++
    "983d8731db8117c3814e2e5701d352d3425471aadb550e2e854dc1b40903b273a8787639bb990a66bc128a43a3d9242b40aac2a2c7bcf6d529743522ae54f72f"),
  (1704868, "" ++
    "d18c9c79d1e8283edfc51f30790eeb83b5dfe5c24eabb6870dffe0f395d24de1fda7fecc63a4fd012cce3875611f6107729e0d4a0f8730b64eab28de9d50ad0d" ++
    "42e37608935281a33ca02981d71c82565b3967ec17ff525d181992bfcd5af12b8301260a5999a1c81b1452185f3b93c852edc80cea36060c69c297a516038c5c" ++
    "2ad2b759da5719381912ef58ac915aa70c2ac3acfb76e19bfb6efcef1b2173b53f74fe0c133320efcb5634713497479b1009ea6780310b4003cb434be28e3e94" ++
    "f7aef1a10958982549396e11fd4de29f0eae7f679a98adfa1a8baf715250dc50ef7eb92c05a04a1aff235ec1c28a29014e5e8650f1a36f0eacbb5a969858bed5"),
  (3881369, "" ++
    "beb9be2554ba2dccbcc39cc4babc7ca1402c7831cff1bb15292e20926102eca751579f84bf5a35f58856753fb6b4acc49124c3668fe125df3119842c5267b4c1" ++
    "733d7f1dd73467de2c2adef17ed2d4b89c8d44ad72c35bba651519cce80210efda9d92c9394e366c046acb6176bde83f770056df687f6d44c448a0df5f3200e4" ++
    "c3a747e7bbd2e253582225c1f3e898d725e2d306bd8bde354aa6da16b14552b430d7c7a0a8a363a0c968a91605f4d19298b4ad5db1084419fd7251e2638ee902" ++
    "c7c8569ed716356ee4090947e4582ad3e364867fdb011947d0db370c06f5647dc281cad4fe4ecb70bc669c7054de536a3c11724d327954c297c2fabebae4e322"),
  (1870892, "" ++
    "7de258cd4fbea1826958df9195f320de9d7b3d382582f89d869703127d3b97639d5ad21884885cc48521e596a92af266bade9bb35019cc4992e44d624522b877" ++
    "a1f311dce4f2f047a430b65f80a3c8a71fe51c37323676344266f49abfeede528e502ebd08a2a3d8a62da63c1e6ea9beceac9063450b14ebeec4ff90e2610528" ++
    "2d0796f64acb704adc5f0b137e8ef6323dbc94eb759b0dc8ca0b3c752bd0391fa15bcc132b9490005a8c11ab912ba4ba6de7731ecf390945285a704cd8c12933" ++
    "fc4e8b787694d5e05de8921c3d8151769fdd4e799e8ade5c325e31cadc11429cc5120e39d6083f0381ea4c8b68159de4cf19f7b8ec84c07e02dc8ed0bb2930f4"),
  (3541846, "" ++
    "72558446a59c8d4b2263b6b0531247a973a6db3990cc663eee46db72c212260b2982527a029406a6966e66f0cb85e867ea3617ffb9b7a98535e045bcf2981bfe" ++
    "5b21f1cdc35659f6c2099d4e9cb2b84c0afa31674116fa244c1e623ae0596fed21fd45fb9dcebd251c702c8b9b6b865686255ddeeedf0b95f4d3fc6c5494c6f6" ++
    "33f3d13e644588b6d05f3b8fbcaa875114f38961c726f3f06426c6c315152ede243edcb34dad9438beac107d73eaecd9d9e3f155523ce440563fe8f83246b577" ++
    "3aee25146589ea4ff767865079fb7efb9c087965b318d20b9b07aa8f31150eb19b6dcf0b6660b733af958aa3e7d7fcd51efc6bcd7ceada79eb289f117723ecf0"),
  (854176, "" ++
    "aa40bfcb1621e969aeb970311db9bd7222333a1ae6446a1f7526d7272160cc56b9fd9e06e0221de0fe4309e06785a686df44a3d2e141be162bb896669ecd43ce" ++
    "197acaacb86f741a7049c908bb3eb616722acdc10bf66165ec001122d49af032c7cd4ac8a4ef10fa55449790a3b8573ae80b3853ae2335ade9b412b9ed68f189" ++
    "905e9eacc25dcb6763399a4d75f1eb742b763c5c91c82abcb8eaa115103a5676e1799c4bad53b1de1a1980d51cba14f07db51713b976c367c79fcb8d2cbbe1c2" ++
    "6ef304b0441cad19a2d39f838a3752cd52f647f8a95555e8ab2d3898784a18f11777279ae013dd78de81ff889cdee79125cfc8209c3027f30ac4be6d4b3eb5d3"),
  (3146997, "" ++
    "432defcf78f1780b4422e9bb9e6f742b753ce334052367d2df53d18890952d562b6f64aef62f15dbe1c05374cde30d96af1cfa2920063744bf2fc655b16bb0e5" ++
    "69254f16b5f2a593ed86edb1aea89372b0edc3de9cc44be60437968b4ef7d5a436f3e9cef1a9e4d69df4450abba0fa3c7f6ad51abf3e4dd63c23a04b84990713" ++
    "0aafdc53c924d7b9b444e05d63571c245801d64c6655d8c32b1240c33fa0163e040440758c2e31583e52c14786b32d165cbe166afd2b95e04a61948d4da15b0e" ++
    "e6175f1c7dc2c0ea210bbf5193445cb09a3a0b0f5dfda7d6da8673ac6825cbf3987d91af69bf27924558ca5e4d5b3e5625bba7cfb97ae89baeb37e9f4e11f6d3"),
  (3106685, "" ++
    "7c62ea672896893c368856c39b44e42deb6be3e8ca9aaddf5aabbb9048a1f05b3b1e8205f351b6599ec78c7186b50d795e273a96beeb31710aa1b34ccb48fc27" ++
    "1c0ce595653a7476d1cbe5754f2e197bdc50fb0f7bd34d79abe7b13e5d3e3b93cfc421467ef78a0c364a6141e3400408e3c39c2264167b79c4558a35cffa4e73" ++
    "f342fd2cebd80dd9ca5a6a305546ca624f1fabdb4c203102ec4c5e70eafc0be33aa65ff7a8a6e78320343eb176b92ff2d31da9d1e1361d89e6b8a87901454bba" ++
    "a9d3de41a2c0adc44e0181125942312b2f274e4f599b88fd8fe885c2200a826dd8ce83d2637f6cd27f996c052d80f69384adff80841e7b4b350bf69c611d3686"),
  (151825, "" ++
    "ceaeaea28503f2911bb650109d777168a7e803ac2d943f13c6d767883a14757ce5eba4f96213f1c46ce52187e02e81db0cfadaaded0e3859e742c2f39671764e" ++
    "70c83cff4a86f78d0b4ec56f8493fe95d08a69ecbc368f54f0babe6d3916ac6a66d914b80a71a45d78f94fcecaba95cc674a88088052dce6b227dd3815703068" ++
    "716c31908172e0c02947d81a83556ca81914c2b6dab5bf3bac239000a16f96a5ed7a092e2f8fd911e3f04e4b886df2c661f3e88d490ad1aeed73dce031b2e0e0" ++
    "37bf850ee081c1365431114af6f8d5a99dbf087bacdad74be96636ed6de17ee02c683ce450627c3b13ef6cab1e08986b1c41828f93ce78c2cfbc9fad3326588d"),
  (2445707, "" ++
    "410c527c12fdd96bd3d737d73b84056c3f00952d2a3fa28596ee4224683ef4e9fd260744ad54cb9e18118e5761ec5f66eaea451548c4ccde15f7bd180bee48f6" ++
    "7858de1659ecb5b1c6371d4f49c90764c868757ff85d381bb66047a4eb3bcd4a36713de933e3e18b2c87135d523eb7630c4f6612b1d64473cd1b95c2a68adb40" ++
    "4e2aebdb5906bf474dbaa47cf058034fe63e6a1b8dc6d6b927446b0be96ce3938b74d076d5adb6bbd66355734bf4bcb9b1b891c30c3a320dbff0fb96f9670caa" ++
    "80c690a807fd1fd0bf2169822276a0bbf9e026dec8d570de59e3a0e6da81e907f2944a24bc744e29f3974119d4fad17caf75e13dfd398bce474d46979f1bef3d"),
  (287993, "" ++
    "14f2a178fe762a462be3323b8034dcba568dfeaa601e840d3fd0851927da41ecc4093367855ef93a671cf2290412d2d2a0e212a4e6b141c5e85917d416cd046a" ++
    "cb3ac4ab18f1df84e0837b9daa897299bcc69418ecf5690ba563968a51fc61a39e588b236ec688d9e252452343666777e47e8bd82b0582262ffe7e26d919b0e5" ++
    "9a6c8469fc78453b52045667ceb86736654977d0f9355ee61e70b67f7ded9893eb34d85fed16b83379d82a46d885d8aa1bbafa549e76bc854aa64c8a7fdce1be" ++
    "759a46b50643b977b15befda3e5e26e15bbb5a9045c17a9d3b9b4b07e6b32f4b5b74a0b6fe8115d83940ced76ae1da3fa11b2740eb15e91dffcdd6a4712c57a6"),
  (2033947, "" ++
    "0615a64fe06a0e40b95007ccc3c68493a497fe9df7d6c8b5b47cabb88830654d2c4b2f24c69b9f7a57bc4d645e9dd0c5a4d0d6d632248dfdb8f7063c8808a6de" ++
    "3dbbbdb696fc2b68cf27d37c37be6819ce10017b9e58064a8ff4cc1fe1fc4ecc6dfcb3dc7877bbe84938760f94c76b84ddd000f9094d1b869212ba6d60419c0e" ++
    "a55b0273807ff9fcdbb91bd3472fd84fe63cc21c2f35c53ed73e955047b7bdc093d027936243a107ac76d375d0957cffb5785d9379ce7e37812ee74aa4ef1f9b" ++
    "fff8ec2b3835087a023c59b7e2dce60995642cc855eb4146c7c8b02c25e9514a638707de955341ac2f7e312b92eac32a674d340613701f2075ddbe3cbca75265"),
  (3330894, "" ++
    "690c0645668abd51c0223fac68e4517ba5187e3c0190a191ffc8facb4ad1b5a1aeaf3eaaa3a4f41c7954ce96b903a24b65f446f9e8c088c663d072d557a32137" ++
    "0c2c9fb12930e482db17cb941aba8e1b7ab19e2cf1d0ea6e7b993eca0105e5cb74762e61d5a5e0f61aa1523791564af77e3479b7e564e52b8eeed097117cc278" ++
    "b19cb4903e01e0a5bdcc93dc378ee125d7c19ad67d7beb243d160b614a6d36e94f62d984435c4878a0e93f4097cdcac520547c27178c63cdbe5f5fc5ddeb2dab" ++
    "a130b7c710b575afda5d569078d62d7625fb047825318556580668a4376176a35bca8edf5a3303bb96dd6f4723422db4f9088cb69fc660f1860dff9a628f723a"),
  (607171, "" ++
    "7730f6f3da15f291a140304ed4e2c224bca81a33ad6c119c80dcf0e463dceafb98c6be4e790f7e7fbde79ecfcc8467122d8a3d8c8e7d4da760fb6eb4f29e1fe3" ++
    "924be35e5b802049ace6a7fb6c9d64af369a271e981b9447123f959ad0156640384e23bc295c2d5237da9b79597d6445278e666a4d628be9fd69e6ce555d5d33" ++
    "d1425ac1eac9155d003ab8ab00aa43514642e7e084f02149fb01e76dacd74ff3fbeae0f1398e339ab4280cbac1f33671a0ea6253c9c33b0f275aeed18dc540ab" ++
    "53fa5c5c90a7376ed127b862bf35974a28fa6d855640b4e4725365f54ddb9e2e46b6775296de79b49a5bf8f4bc1eab5c615b91f99e96b50b2a70719f95e51863"),
  (3514472, "" ++
    "1daa5c19ad9d408aed06c49641c56ab7634e90f38d75c3a71d1cb85792ff1ddc164f116b4a125fa51a0a4675ecbafc61fa2cd2318c0c2dec2204289d5468e613" ++
    "854f6c1cf5f1d4ff8cf617ba63fcc9b7eb8dc1caaee115ee41acf43e1e35f754647baa004cb4b7e0acdc8a620d3fdf2fa506cd2ef547ec09eacd1a5b9f39a7ac" ++
    "0831293dbce650720b96c45b4e02d27b57df7bf4b17db23e7811215a37251262dd8512b161912b9c2fb148f0789b120dcafd088e80fe6940fd822ef92ffded3c" ++
    "a21df2d29402934a0203f8d89d8d6eb275b23afac9838120aebaa65f5a99513d27782ebc183067ff832d431f799ecda541dd3dda70dd02ac194973f697e3f95c"),
  (1596700, "" ++
    "a21cfa81eee928b51942fc6e409cfcaf494b8a988fbd2550c2023526bfb0f8c474b3349231ddbd5e1a270c45ba61b221b0760c03dbb0a42583be14227aaa5845" ++
    "49b638bd05c002f07b21232e5982c0e31dbbdeefae9b6170ee6eb5362d11cec30005dc4dfef8758468ab57742b37c2643c5ab9ae21ef9dc9efe4bd265a344cff" ++
    "a8a9ea1eab0b4710091bcac35eedc42c1810679f6338a1bb3fb6572dafafabd7b928b0c03250e13bdbbfccb27aa6acd291f6bb0bd062dbcf0e95d9a625384eae" ++
    "cb69976b763e336ba3531feb55bf9cd14a2a34cce2a833071a70168c6eae87531a619c5df229eee7c76f51ed2e9233b2a1eff24cafcf481ac5f6ba9bb32cd5cb"),
  (264369, "" ++
    "ca18805a6fc7e5a7dde12f04b216de2d1a7b1ea58a7159eac7d4bb9fe62313a4741b7fbcabbc76ffd614f27caf769f4d1bc638bb4766f27b9b96d08a95e1b7e6" ++
    "d868f39e191e684f7e6ac01dad84b2eb3341fd69520bb06a81a970dcb56f4e469712602e1294f929b788e57eb6f7d2861aebd7ffb96a8ffaba2646b881a1803a" ++
    "5266ed07e915a7762f2e95902c40c36f4cddfbcf6aad28f0f53401ca486c7141bf5a952cfe855ac5e9d7914abad466ceed8ad33ebaba182594cff44d1d22c9ee" ++
    "b510bb0b5b2ceb08ef1a13446b3014b144788d753c8755758310c315ae99645b2aea619e0ec0297021b50b8bb2a8bdd83a5a2326d737edb0792a2b88f0646772"),
  (2754030, "" ++
    "e586ebbcd22a7f1d64277d1a37a17bbbd32e568393c86489d1cf8aa2a59fdc6e280f3e30867abd5ece71eabf94791bf623cfe4ef1e5bf028eb845cdcfb3b1969" ++
    "ee9cfa1799ad9db5c82604982e5871f289fb8f87c09282789993a87840e986fe265bddcf5d8afca3a7e107d4f825c73b427c3e6debd2a76474389f1c39e621d4" ++
    "e15e2f3612891a08c3a859e9d2db185072a0cf2f5e65a4deb492c8554fab51e7656c8d3d8f70f598e7eb2fc984d0235a60b4e355a6505da815defd437516e8f8" ++
    "e4f43202e546e5c9fb17e17f8a9b52ddaaeb5978d4ce71d14773fcf8ed39aa952554c9b94049321281455a6b436076fd3144709a0362121881932ef979404a6b"),
  (1808138, "" ++
    "92b3a99fb11835656aa5a5e46db059e2e5df0e056118b9758972c33c74f1b12573475a7924f5c5c23241cfddd5b54830eee7b8406f519fd557e8a0e8f9643473" ++
    "36f3340795db3d13904fb05aeb6227b0450eaf0c3679fb11bd08dc915dfccaa68b9dfa11d633a1e2cd8445f1f9259aa35e2e960e1d73c75c66c29480f112fd3c" ++
    "dfd13d60b6e9980728b93ce157ef7c6a5eec392e24bdcea878df3e57f9e4e0665a0c9d7b4d1d5aba6a059c0b83643b3e533595b8c7383d1e9e266a02c82c7413" ++
    "b71559cfd3d316f67811e8063ba1e2c8cd065e8fa2fe52d5eef4651a6c867c97fd566e8a0c16ffe50e9e53a512c815ace29a3affba29a7ac08bae68e574e088b"),
  (1161822, "" ++
    "aff1db3d76d27183105c1f673f198942406b8ec24b7e2ea9acb1b2b0dbd493d96fb6f6cb78e73aeaec89b8ad1675224f1ddd6fa2216e2d23014362be8abfe942" ++
    "86349cd69e9249e22ba019e492d3e7bcdc4af995da6687f2bb98921fd148177a179ed9379cdb3f347b1ab91135c3b040fdd3536d39b24b9e2ff64d71528b267e" ++
    "34abbc9b66226c2c905d7222f93141f02e24ddf5f9ec8dd84cc9aab25e0fe0a4a7ee61333488e69c35fdf9a0e075dcf7a1d4c4910e2d039c4eb9460c051721db" ++
    "b0f75993931e5f0cbe4439437d424e7b10657bf31c1e9822f04c3ed5f30c0d24b10e89676ac232cfcc4c0bd9f5adc6132b0ea9501a9b2f33bbf705b2bbadac21"),
  (2288854, "" ++
    "cab1517aa67a9db48c973d4773af406e750e500dd7cb7eb0260c8e52ddaf8a9056a15d20fe15208ed71649ffe07b4cd6720ceab1be8f5af9bf2b7a7df1435677" ++
    "f4b50034f4652e9b145e43b71521640708acbf58e4e31b5a1284bcda628efb6633b5db39c1708e0e47c9bfe8fa7c9ba060785351365ac50415259d651939b2ae" ++
    "0dd7e208285480afe6b0ab812fa3c0a3d5b474cbf64501d3b455e2bace831d44e256463676a4729b12d48ee920f1b00f9166ba18ed8d87ba9e4635f938363719" ++
    "06a8e676a444b3aaa06fb06ad49513ffc7893e23a79828b68fc80648030bcd91a2e2bd9e73ff6b2905a56cd1ab98a783f6a3974704bdd1fc75b4f9567b9a640c"),
  (2128912, "" ++
    "63a60bfc8a4f4ac5e48fc77b2d7c62ef3471e3ace91adbde214cb3a8a6067c902e2e1e84539e4cdcd35d6074dd983708a687f21b599c11951fd59de838934be6" ++
    "11f4fbf8c16e924900589bffe4c5ce4601cdefea05e6a8c0de27c34a585befebad07cfafbee0dbcca4c01e237a5a3640fa28011bf57b53ee5211d11e2acdff76" ++
    "c5d628a2d1531b34a926848b915fd67a9f21e2992903b8e72b86e736e6405cbd8d23ca8229a3d1c3d40837d2e18caa261fcf203fc2401ad923c07d9987a4e03b" ++
    "5f368af28816eb6f8de5a33e84485e2c747f78f58b0aa48995cd2ffcc3f8bb175583802d94626af0fbdd72ee13ae3cbd021a7c28b642f82a964b0e5b176a390e"),
  (2398671, "" ++
    "1b826cb73965c627e04145ce0407a316d579f79d42377007e74c9490fda228d6726dcfa07f7e7220dcc895b263b2c4c5487fe60b28f0c42ac3fe530a7c946ed1" ++
    "40695f4d5026df4404d4e257969afeee93d68ab8f1b649fe4a64bec794d4aaae19a2181c37aecbfbaf63378c491bd511efad04a076f85a87458bffb97128c2f3" ++
    "685cac545ea66236927e788c5f4fe1ed0ae5363cb05e3b7abc1c3a9a80f5b694b2d2bbb8625fb91b14f84f1940841767ad3b59d4e8f0b9e3b1e2199f3322a28b" ++
    "17d9f917552c21f4f2e8b4d327a7baf4fa8bdd08f9bfaee21ffaab255c8d68257290ece45bff4b6fe56d5b75190d09359427b9fb2e047f956926487feabf837e"),
  (3138133, "" ++
    "cfb36bc20f274e5246e2019e9637b5316df8cc215a2bcd61b92c1b2158c6dcfd84dfae702237319fe27a80119f97046a1bd7e6fa911becae837cf0a6327847e7" ++
    "98a3feb094e6027e2468f0f901acb4c7850f2f9bde243b366719a1293907fd6bbb71f26001b1db64cda7771d1e1d68033af051374de99abb08087033b067a6e9" ++
    "bf1a1cc5ebe60a23a380164044472d8eff5fced61c77d94a2b3abe34f6e94afc557f24452cfc4dab531329ce8a2aef0c1a8f3b360920f3295db16ead9a06c567" ++
    "faf6a21ca870c0a9e1fe3b0627adb4fbe84a9ac9e2142e2c4164edb2315a3ff64a804265c2b03226267ad673013f502c49c75b0dc6cd563689a25025b0db55b3"),
  (1998027, "" ++
    "c3d1ea0a811fd67a8f5b948bfef35f7e596bdb4a270fab53a53921cd0d5d273fb838b74290257fa44752e3181dbd586e76860b6c8cc8fe691fa8ba2246b5520c" ++
    "36d45747d04a4f955718625807773a021ebab95890c506d2ab76d08377544a6b6533cee8cccef983147547a385c6c704cb8ba2cc89980a05c04d089dc25ce91b" ++
    "8e1d69cf8d23af90ca7a18455aff1a00ef11aaaac6cd9a2b351f63f82b52c7ef3c0d3ab9d6cca59b7b2b338b44818bf0ff7a4baf61ee4f4919b7bf565456a9d5" ++
    "8155d3ca4eddf0d446345a398a7f0308569b34b9eb1107de9e8b3bc38f81edc571a9f5c9d010bf58aa490744fea63b021a9550b3403920a4849866f1f1975d6a"),
  (1774513, "" ++
    "50a073895eddbd5199c20176f7ed2739582b15c893e9e7303434cb85794f2319aebc0aeba7802fd5a7cc7128b308c5bcb0296c893dec65ede97506289e736744" ++
    "eee552b82525b458fa5152f0449ea766879d7eca6dadae2a592c86bea4a67efaaadde8e93d0d7c178cee8209f0acce2ed34800d20449b337985efe38661e8732" ++
    "8ea4465eab4057f8e4e446c120363c2db836346e28cc75d1877b7ec545ba3d65d80b10d35929294cd9fb16104bc8f17090f93337de4d7caf85b5564735cc146d" ++
    "05adac528a8eda95d8f49408cbd42e6953202354b6a314dfe051247efeef92b280966d3d9e0179ca45866421de9dcd79abf910df8e99e71f64f0ccef666dc7d2"),
  (2143119, "" ++
    "eabf547eb52694428d12bea76072a342aed5260f0bfdb65d210261d3c7900d3061fff73fd24b80dc5908f41f81dbb5fc5fc07ec5f6665ec0883fcf53f357b6bf" ++
    "ca515b8203bd79dd12d66435aefd4e2156f1bd04954cf45f09cddb79237d2f0248524f1b1b63a6ea12ccabe3643721a730c5c7b105515c70adfca09a28c2211b" ++
    "0e9ab0a77c98217163ac124cfd01ff20e86ab56d2cce68cdf4df7387824e3fe4addd62c9d0bc1c48e9799b218ce3955e5bae76d2bb611faa381ddee4d7cabb1d" ++
    "f4cbe056ec0be14cf5f2806c3a70642483527f256ddc013a29fcf7d51b8e9ee6e19c810ce668c8353c9ea47daeedd481a3ca8c9d267f5abc05803a2c1f1d2bfb"),
  (1245654, "" ++
    "9e6ee1b4651b2238ddef292c0a326510d031123dbd525d87c78bdbd58fad9fa074d5857111e513d8b104b8c32295d0e795873c8e59012f83be18ed03af635d04" ++
    "fc8e5376f62b3ff5008795ea193cc2b05a5bdb1ed69adaf4b6ad07e901e80a72d4fd94bbeba9904c5185df24d54f66adbd7141cf6416437537e9761f814e5ea1" ++
    "fbab67e07b8bcb3155015cb24ceacabc51dd97a9675059755a406d64b289c796e92834b4948e3d83ce539f5a8233b98d9dd6f4cdc95d53ae57a07913377cd88a" ++
    "8940b0f96d5cdf873402ae46cc4b68c39e99fd3e2307e2f92dbf5c79ee7a04d3505a5aaf190d77f4820c13d8ebd7a5bd6907057849ed75c3f7b3845f565cda8c"),
  (2863384, "" ++
    "8c878b34105aa16986671d86ab2a057745bca3e1a7c2095bd983e05cacc1d3732d5e02b5efbf358c4391276833552da2aaea4f0690ee9ef0dbe5244731492f72" ++
    "cd639c389c4339b5205f1521d5b37a62b98bc91c731f98aff21f1a74c2bc4e3dbd460ba481aa62a4dcebce94109d6207cd6ad5ce7e3f481fdd3af57033fd1be4" ++
    "65014f7108a993f353e021ea074a037a86302ffec9ad70e96eb88967782e86eeaa54b1d8d730e0cef0c2c4998e44e89472b933bb0f416151b2a8244ec3a0a392" ++
    "bd33208546c1fae0a29532815bd9040476652a5093192c91c5ca7619d0685765b151e3bf6c553a88581fff930098468a57a048a6a31abecad6e9c2f3231ae952"),
  (2211230, "" ++
    "95ad7c74d373fb7a74b1ab99c18ffc0d96699b43678f1eda7febe11890058b9d05b641d784c1410ff503fb8dbe9fdb07868d51aec7e079e3040bc45aacefd2d4" ++
    "a9f24d622b1fcfc5a56006aecfbeff1b88d1ce2e59673758cb3e3705d848a2f202c8349684c8f1b5d522d0e244b5d49e2a44a2fffda23ad839d8b27fb8f99828" ++
    "0bbf42f1d7cbcc43a50ab982c3d98739038ff18a1931e0145d124bfea4635a500abed9cdbf42376e360733833cc24173990751a3ed1c792333cf37dfc62ce6e9" ++
    "5dbc9894a58097c74906ecb4cb938336e4b883912a0eb730e2a5130c1562ba64009152db28e3e72a301ac764dcd3241f35f9256c513fa4fad16367f555da581a"),
  (357288, "" ++
    "900e24367c29aaf8ca613bda9c98958e86e9854ece672bc97203ded68e0ded583c411a5c17bc42a22e8fd8af04cf84d49bcb76dc8f45541c06a4a113b6dcd1c4" ++
    "baaac34b3a324b833772847160904f44b4d3d4336e7f82295abd380424ceec5275776f3f70f04b9d61cb50a68272a74143ff96f4fbdfec20edc401d24cf57911" ++
    "2b7a29cebeb1d9aca6390ea773a371be05f4691c9fc98b8fce80f0780ace9a4996e09846ba97d8bd10664f3da52a816a40b92546f8e4b844eee7f332b093815f" ++
    "9c4183c58677142d94a968dba4ad4baa5839133088244e9094a4f47c15b8d214ae7b953ca85108a5e7c1e56fde48289c9b738e92a5c8fc2d8d9c3148a1ebcdcf"),
  (2779215, "" ++
    "88667443ff8f23e1948ee1f06bf64bcdff608f6069bef538db1ebc347c8d95851a49d6902cb99d41dfa2a07cbc4224b8472abb4787cd37e8cbc1b204bd31c634" ++
    "cac26171fa69b00c071d04e9e56a4bc7278e0a6c15f0bef11ec003a98ef18804943316ed55611d6a19c609d9457b7a1805dbd963796a912cca428b06ac5fd090" ++
    "32fed644b457978bca2beeed8672b1e3b4dd5e50251de52a8cb80d4d2669dc0a6c3daf381aeaed3f17bccf96b5d0f3b4d22cd5651edd32a9e04224fb5cbc9798" ++
    "f0eb43cff6815b87563579f69b3223989dfac769c299085120b13279982464bce28e2408f28920636098678489d46fafeb349cc5e2c3c7d1802fba83a6bd4bb3")]

def lookup (i : U32) : Go (List U32) :=
  match items.find? fun e => e.1 == i with
  | some e => .ok (Dag.wordView (hex e.2))
  | none => .error (.panic .index)

#guard match kawpow (hex "63155f732f2bf556967f906155b510c917e48e99685ead76ea83f4eca03ab12b") 49 0x07073c07 1073739904 lookup l1 with
  | .ok r => r.1 == hex "d36f7e815ee09e74eceb9c96993a3d681edf2bf0921fc7bb710364042db99777"
      && r.2 == hex "e7ced124598fd2500a55ad9f9f48e3569327fe50493c77a4ac9799b96efb9463"
  | .error _ => false

end Verif.Test.KawpowHash
