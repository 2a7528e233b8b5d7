import Verif.Spec
/-!
# The official test vectors (tests/blake2-kat.json), written by tools/gen_vectors.py

Entry `n` of each table is the digest of the `n` bytes 00 01 02 …, as a hexadecimal number.
-/

namespace Vectors

/-- The bytes 0, 1, …, `n - 1`. -/
def ramp (n : Nat) : List Spec.Byte := (List.range n).map (BitVec.ofNat 8)

/-- The `k` lowest bytes of a number, most significant byte first. -/
def bytesBE : Nat → Nat → List Spec.Byte
  | 0, _ => []
  | k + 1, n => bytesBE k (n / 256) ++ [BitVec.ofNat 8 n]

/-- BLAKE2s, no key. -/
def plainS : List Nat := [
  0x69217a3079908094e11121d042354a7c1f55b6482ca1a51e1b250dfd1ed0eef9,
  0xe34d74dbaf4ff4c6abd871cc220451d2ea2648846c7757fbaac82fe51ad64bea,
  0xddad9ab15dac4549ba42f49d262496bef6c0bae1dd342a8808f8ea267c6e210c,
  0xe8f91c6ef232a041452ab0e149070cdd7dd1769e75b3a5921be37876c45c9900,
  0x0cc70e00348b86ba2944d0c32038b25c55584f90df2304f55fa332af5fb01e20,
  0xec1964191087a4fe9df1c795342a02ffc191a5b251764856ae5b8b5769f0c6cd,
  0xe1fa51618d7df4eb70cf0d5a9e906f806e9d19f7f4f01e3b621288e4120405d6,
  0x598001fafbe8f94ec66dc827d012cfcbba2228569f448e89ea2208c8bf769293,
  0xc7e887b546623635e93e0495598f1726821996c2377705b93a1f636f872bfa2d,
  0xc315a437dd28062a770d481967136b1b5eb88b21ee53d0329c5897126e9db02c,
  0xbb473deddc055fea6228f207da575347bb00404cd349d38c18026307a224cbff,
  0x687e1873a8277591bb33d9adf9a13912efefe557cafc39a7952623e47255f16d,
  0x1ac7ba754d6e2f94e0e86c46bfb262abbb74f450ef456d6b4d97aa80ce6da767,
  0x012c97809614816b5d9494477d4b687d15b96eb69c0e8074a8516f31224b5c98,
  0x91ffd26cfa4da5134c7ea262f7889c329f61f6a657225cc212f40056d986b3f4,
  0xd97c828d8182a72180a06a78268330673f7c4e0635947c04c02323fd45c0a52d,
  0xefc04cdc391c7e9119bd38668a534e65fe31036d6a62112e44ebeb11f9c57080,
  0x992cf5c053442a5fbc4faf583e04e50bb70d2f39fbb6a503f89e56a63e18578a,
  0x38640e9f21983e67b539caccae5ecf615ae2764f75a09c9c59b76483c1fbc735,
  0x213dd34c7efe4fb27a6b35f6b4000d1fe03281af3c723e5c9f94747a5f31cd3b,
  0xec246eeeb9ced3f7ad33ed28660dd9bb0732513db4e2fa278b60cde3682a4ccd,
  0xac9b61d446648c3005d7892bf3a8719f4c8181cfdcbc2b79fef10a279b911095,
  0x7bf8b22959e34e3a43f7079223e83a9754617d391e213dfd808e41b9bead4ce7,
  0x68d4b5d4fa0e302b64ccc5af792913ac4c88ec95c07ddf40694256eb88ce9f3d,
  0xb2c2420f05f9abe36315919336b37e4e0fa33ff7e76a492767006fdb5d935462,
  0x134f61bbd0bbb69aed5343904551a3e6c1aa7dcdd77e903e7023eb7c60320aa7,
  0x4693f9bff7d4f3986a7d176e6e06f72ad1490d805c99e25347b8de77b4db6d9b,
  0x853e26f741953b0fd5bdb424e8ab9e8b3750eaa8ef61e47902c91e554e9c73b9,
  0xf7de536361abaa0e158156cf0ea4f63a99b5e4054f8fa4c9d45f6285cad55694,
  0x4c230608860a99ae8d7bd5c2cc17fa52096b9a61bedb17cb7617864ad29ca7a6,
  0xaeb920ea87952dadb1fb759291e3388139a872865001886ed84752e93c250c2a,
  0xaba4ad9b480b9df3d08ca5e87b0c2440d4e4ea21224c2eb42cbae469d089b931,
  0x05825607d7fdf2d82ef4c3c8c2aea961ad98d60edff7d018983e21204c0d93d1,
  0xa742f8b6af82d8a6ca2357c5f1cf91defbd066267d75c048b352366585025962,
  0x2bcac89599000b42c95ae23835a713704ed79789c84fef149a874ff733f017a2,
  0xac1ed07d048f105a9e5b7ab85b09a492d5baff14b8bfb0e9fd789486eea2b974,
  0xe48d0ecfaf497d5b27c25d99e156cb0579d440d6e31fb62473696dbf95e010e4,
  0x12a91fadf8b21644fd0f934f3c4a8f62ba862ffd20e8e961154c15c13884ed3d,
  0x7cbee96e139897dc98fbef3be81ad4d964d235cb12141fb66727e6e5df73a878,
  0xebf66abb597ae572a7297cb0871e355accafad8377b8e78bf164ce2a18de4baf,
  0x71b933b07e4ff7818ce059d008829e453c6ff02ec0a7db393fc2d870f37a7286,
  0x7cf7c51331220b8d3ebaed9c29398a16d98156e2613cb088f2b0e08a1be4cf4f,
  0x3e41a108e0f64ad276b979e1ce068279e16f7bc7e4aa1d211e17b81161df1602,
  0x886502a82ab47ba8d86710aa9de3d46ea65c47af6ee8de450cceb8b11b045f50,
  0xc021bc5f0954fee94f46ea09487e10a84840d02f64810bc08d9e551f7d416814,
  0x2030516e8a5fe19ae79c336fce26382a749d3fd0ec91e537d4bd2358c12dfb22,
  0x556698dac8317fd36dfbdf25a79cb112d5425860605cbaf507f23bf7e9f42afe,
  0x2f867ba67773fdc3e92fced99a6409ad39d0b880fde8f109a81730c4451d0178,
  0x172ec218f119dfae98896dff29dd9876c94af87417f9ae4c7014bb4e4b96afc7,
  0x3f85814a18195f879aa962f95d26bd82a278f2b82320218f6b3bd6f7f667a6d9,
  0x1b618fbaa566b3d498c12e982c9ec52e4da85a8c54f38f34c090394f23c184c1,
  0x0c758fb5692ffd41a3575d0af00cc7fbf2cbe5905a58323a88ae4244f6e4c993,
  0xa931360cad628c7f12a6c1c4b753b0f4062aef3ce65a1ae3f19369dadf3ae23d,
  0xcbac7d773b1e3b3c6691d7abb7e9df045c8ba19268ded153207f5e804352ec5d,
  0x23a196d3802ed3c1b384019a82325840d32f71950c4580b03445e0898e14053c,
  0xf4495470f226c8c214be08fdfad4bc4a2a9dbea9136a210df0d4b64929e6fc14,
  0xe290dd270b467f34ab1c002d340fa016257ff19e5833fdbbf2cb401c3b2817de,
  0x9fc7b5ded3c15042b2a6582dc39be016d24a682d5e61ad1eff9c63309848f706,
  0x8cca67a36d17d5e6341cb592fd7bef9926c9e3aa1027ea11a7d8bd260b576e04,
  0x409392f560f86831da4373ee5e0074260595d7bc24183b60ed700d4583d3f6f0,
  0x2802165de090915546f3398cd849164a19f92adbc361adc99b0f20c8ea071054,
  0xad839168d9f8a4be95ba9ef9a692f07256ae43fe6f9864e290691b0256ce50a9,
  0x75fdaa5038c284b86d6e8affe8b2807e467b86600e79af3689fbc06328cbf894,
  0xe57cb79487dd57902432b250733813bd96a84efce59f650fac26e6696aefafc3,
  0x56f34e8b96557e90c1f24b52d0c89d51086acf1b00f634cf1dde9233b8eaaa3e,
  0x1b53ee94aaf34e4b159d48de352c7f0661d0a40edff95a0b1639b4090e974472,
  0x05705e2a81757c14bd383ea98dda544eb10e6bc07bae435e2518dbe133525375,
  0xd8b2866e8a309db53e529ec32911d82f5ca16cff76216891a9676aa31aaa6c42,
  0xf5041c241270eb04c71ec2c95d4c38d803b1237b0f29fd4db3eb397669e88699,
  0x9a4ce077c349322f595e0ee79ed0da5fab66752cbfef8f87d0e9d0723c7530dd,
  0x657b09f3d0f52b5b8f2f97163a0edf0c04f075408a07bbeb3a4101a891990d62,
  0x1e3f7bd5a58fa533344aa8ed3ac122bb9e70d4ef50d004530821948f5fe6315a,
  0x80dccf3fd83dfd0d35aa28585922ab89d5313997673eaf905cea9c0b225c7b5f,
  0x8a0d0fbf6377d83bb08b514b4b1c43acc95d751714f8925645cb6bc856ca150a,
  0x9fa5b487738ad2844cc6348a901918f659a3b89e9c0dfeead30dd94bcf42ef8e,
  0x80832c4a1677f5ea2560f668e9354dd36997f03728cfa55e1b38337c0c9ef818,
  0xab37ddb683137e74080d026b590b96ae9bb447722f305a5ac570ec1df9b1743c,
  0x3ee735a694c2559b693aa68629361e15d12265ad6a3dedf488b0b00fac9754ba,
  0xd6fcd23219b647e4cbd5eb2d0ad01ec8838a4b2901fc325cc3701981ca6c888b,
  0x0520ec2f5bf7a755dacb50c6bf233e3515434763db0139ccd9faefbb8207612d,
  0xaff3b75f3f581264d7661662b92f5ad37c1d32bd45ff81a4ed8adc9ef30dd989,
  0xd0dd650befd3ba63dc25102c627c921b9cbeb0b130686935b5c927cb7ccd5e3b,
  0xe1149816b10a8514fb3e2cab2c08bee9f73ce76221701246a589bbb67302d8a9,
  0x7da3f441de9054317e72b5dbf979da01e6bceebb8478eae6a22849d90292635c,
  0x1230b1fc8a7d9215edc2d4a2decbdd0a6e216c924278c91fc5d10e7d60192d94,
  0x5750d716b4808f751febc38806ba170bf6d5199a7816be514e3f932fbe0cb871,
  0x6fc59b2f10feba954aa6820b3ca987ee81d5cc1da3c63ce827301c569dfb39ce,
  0xc7c3fe1eebdc7b5a939326e8ddb83e8bf2b780b65678cb62f208b040abdd35e2,
  0x0c75c1a15cf34a314ee478f4a5ce0b8a6b36528ef7a820696c3e4246c5a15864,
  0x216dc12a108569a3c7cdde4aed43a6c330139dda3ccc4a108905db3861899050,
  0xa57be6ae6756f28b02f59dadf7e0d7d8807f10fa15ced1ad3585521a1d995a89,
  0x816aef875953716cd7a581f732f53dd435dab66d09c361d2d6592de17755d8a8,
  0x9a76893226693b6ea97e6a738f9d10fb3d0b43ae0e8b7d8123ea76ce97989c7e,
  0x8daedb9a271529dbb7dc3b607fe5eb2d3211770758dd3b0a3593d2d7954e2d5b,
  0x16dbc0aa5dd2c774f505100f733786d8a175fcbbb59c43e1fbff3e1eaf31cb4a,
  0x8606cb899c6aeaf51b9db0fe4924a9fd5dabc19f8826f2bc1c1d7da14d2c2c99,
  0x8479731aeda57bd37eadb51a507e307f3bd95e69dbca94f3bc21726066ad6dfd,
  0x58473a9ea82efa3f3b3d8fc83ed8863127b33ae8deae6307201edb6dde61de29,
  0x9a9255d53af116de8ba27ce35b4c7e15640657a0fcb888c70d95431dacd8f830,
  0x9eb05ffba39fd8596a45493e18d2510bf3ef065c51d6e13abe66aa57e05cfdb7,
  0x81dcc3a505eace3f879d8f702776770f9df50e521d1428a85daf04f9ad2150e0,
  0xe3e3c4aa3acbbc85332af9d564bc24165e1687f6b1adcbfae77a8f03c72ac28c,
  0x6746c80b4eb56aea45e64e7289bba3edbf45ecf8206481ff6302122984cd526a,
  0x2b628e52764d7d62c0868b212357cdd12d9149822f4e9845d918a08d1ae990c0,
  0xe4bfe80d58c91994613909dc4b1a12496896c004af7b5701483de45d2823d78e,
  0xebb4ba150cef2734345b5d641bbed03a21eafae933c99e009212ef04574a8530,
  0x3966ec73b154acc697ac5cf5b24b40bdb0db9e398836d76d4b880e3b2af1aa27,
  0xef7e4831b3a84636518d6e4bfce64a43db2a5dda9cca2b44f39033bdc40d6243,
  0x7abf6acf5c8e549ddbb15ae8d8b388c1c197e698737c9785501ed1f94930b7d9,
  0x88018ded66813f0ca95def474c630692019967b9e36888dadd94124719b682f6,
  0x3930876b9fc7529036b008b1b8bb997522a441635a0c25ec02fb6d9026e55a97,
  0x0a4049d57e833b5695fac93dd1fbef3166b44b12ad11248662383ae051e15827,
  0x81dcc0678bb6a765e48c3209654fe90089ce44ff5618477e39ab286476df052b,
  0xe69b3a36a4461912dc08346b11ddcb9db796f885fd01936e662fe29297b099a4,
  0x5ac6503b0d8da6917646e6dcc87edc58e94245324cc204f4dd4af01563acd427,
  0xdf6dda21359a30bc271780971c1abd56a6ef167e480887888e73a86d3bf605e9,
  0xe8e6e47071e7b7df2580f225cfbbedf84ce67746626628d33097e4b7dc571107,
  0x53e40ead62051e19cb9ba8133e3e5c1ce00ddcad8acf342a224360b0acc14777,
  0x9ccd53fe80be786aa984638462fb28afdf122b34d78f4687ec632bb19de2371a,
  0xcbd48052c48d788466a3e8118c56c97fe146e5546faaf93e2bc3c47e45939753,
  0x256883b14e2af44dadb28e1b34b2ac0f0f4c91c34ec9169e29036158acaa95b9,
  0x4471b91ab42db7c4dd8490ab95a2ee8d04e3ef5c3d6fc71ac74b2b26914d1641,
  0xa5eb08038f8f1155ed86e631906fc13095f6bba41de5d4e795758ec8c8df8af1,
  0xdc1db64ed8b48a910e060a6b866374c578784e9ac49ab2774092ac71501934ac,
  0x285413b2f2ee873d34319ee0bbfbb90f32da434cc87e3db5ed121bb398ed964b,
  0x0216e0f81f750f26f1998bc3934e3e124c9945e685a60b25e8fbd9625ab6b599,
  0x38c410f5b9d4072050755b31dca89fd5395c6785eeb3d790f320ff941c5a93bf,
  0xf18417b39d617ab1c18fdf91ebd0fc6d5516bb34cf39364037bce81fa04cecb1,
  0x1fa877de67259d19863a2a34bcc6962a2b25fcbf5cbecd7ede8f1fa36688a796,
  0x5bd169e67c82c2c2e98ef7008bdf261f2ddf30b1c00f9e7f275bb3e8a28dc9a2,
  0xc80abeebb669ad5deeb5f5ec8ea6b7a05ddf7d31ec4c0a2ee20b0b98caec6746,
  0xe76d3fbda5ba374e6bf8e50fadc3bbb9ba5c206ebdec89a3a54cf3dd84a07016,
  0x7bba9dc5b5db2071d17752b1044c1eced96aaf2dd46e9b433750e8ea0dcc1870,
  0xf29b1b1ab9bab163018ee3da15232cca78ec52dbc34eda5b822ec1d80fc21bd0,
  0x9ee3e3e7e900f1e11d308c4b2b3076d272cf70124f9f51e1da60f37846cdd2f4,
  0x70ea3b0176927d9096a18508cd123a290325920a9d00a89b5de04273fbc76b85,
  0x67de25c02a4aaba23bdc973c8bb0b5796d47cc0659d43dff1f97de174963b68e,
  0xb2168e4e0f18b0e64100b517ed95257d73f0620df885c13d2ecf79367b384cee,
  0x2e7dec2428853b2c71760745541f7afe9825b5dd77df06511d8441a94bacc927,
  0xca9ffac4c43f0b48461dc5c263bea3f6f00611ceacabf6f895ba2b0101dbb68d,
  0x7410d42d8fd1d5e9d2f5815cb93417998828ef3c4230bfbd412df0a4a7a2507a,
  0x5010f684516dccd0b6ee0852c2512b4dc0066cf0d56f35302978db8ae32c6a81,
  0xacaab585f7b79b719935ceb89523ddc54827f75c56883856154a56cdcd5ee988,
  0x666de5d1440fee7331aaf0123a62ef2d8ba57453a0769635ac6cd01e633f7712,
  0xa6f98658f6eabaf902d8b3871a4b101d16196e8a4b241e1558fe29966e103e8d,
  0x891546a8b29f3047ddcfe5b00e45fd55756373105ea8637dfcff547b6ea9535f,
  0x18dfbc1ac5d25b0761137dbd22c17c829d0f0ef1d82344e9c89c286694da24e8,
  0xb54b9b67f8fed54bbf5a2666dbdf4b23cff1d1b6f4afc985b2e6d3305a9ff80f,
  0x7db442e132ba59bc1289aa98b0d3e806004f8ec12811af1e2e33c69bfde729e1,
  0x250f37cdc15e817d2f160d9956c71fe3eb5db74556e4adf9a4ffafba74010396,
  0x4ab8a3dd1ddf8ad43dab13a27f66a6544f290597fa96040e0e1db9263aa479f8,
  0xee61727a0766df939ccdc860334044c79a3c9b156200bc3aa32973483d8341ae,
  0x3f68c7ec63ac11ebb98f94b339b05c104984fda50103060144e5a2bfccc9da95,
  0x056f29816b8af8f56682bc4d7cf094111da7733e726cd13d6b3e8ea03e92a0d5,
  0xf5ec43a28acbeff1f3318a5bcac7c66ddb5230b79db2d105bcbe15f3c1148d69,
  0x2a6960ad1d8dd547555cfbd5e4600f1eaa1c8eda34de0374ec4a26eaaaa33b4e,
  0xdcc1ea7baab93384f76b796866199754742f7b96d6b4c120165c04a6c4f5ce10,
  0x13d5df179221379c6a78c07c793ff53487cae6bf9fe882541ab0e735e3eada3b,
  0x8c59e4407641a01e8ff91f9980dc236f4ecd6fcf52589a099a961633967714e1,
  0x833b1ac6a251fd08fd6d908fea2a4ee1e040bca93fc1a38ec3820e0c10bd82ea,
  0xa244f927f3b40b8f6c391570c765418f2f6e708eac9006c51a7feff4af3b2b9e,
  0x3d99ed9550cf1196e6c4d20c259620f858c3d703374c128ce7b590310c83046d,
  0x2b35c47d7b87761f0ae43ac56ac27b9f25830367b595be8c240e94600c6e3312,
  0x5d11ed37d24dc767305cb7e1467d87c065ac4bc8a426de38991ff59aa8735d02,
  0xb836478e1ca0640dce6fd910a5096272c8330990cd97864ac2bf14ef6b23914a,
  0x9100f946d6ccde3a597f90d39fc1215baddc7413643d85c21c3eee5d2dd32894,
  0xda70eedd23e663aa1a74b9766935b479222a72afba5c795158dad41a3bd77e40,
  0xf067ed6a0dbd43aa0a9254e69fd66bdd8acb87de936c258cfb02285f2c11fa79,
  0x715c99c7d57580cf9753b4c1d795e45a83fbb228c0d36fbe20faf39bdd6d4e85,
  0xe457d6ad1e67cb9bbd17cbd698fa6d7dae0c9b7ad6cbd6539634e32a719c8492,
  0xece3ea8103e02483c64a70a4bdcee8ceb6278f2533f3f48dbeedfba94531d4ae,
  0x388aa5d3667a97c68d3d56f8f3ee8d3d36091f17fe5d1b0d5d84c93b2ffe40bd,
  0x8b6b31b9ad7c3d5cd84bf98947b9cdb59df8a25ff738101013be4fd65e1dd1a3,
  0x066291f6bbd25f3c853db7d8b95c9a1cfb9bf1c1c99fb95a9b7869d90f1c2903,
  0xa707efbccdceed42967a66f5539b93ed7560d467304016c4780d7755a565d4c4,
  0x38c53dfb70be7e792b07a6a35b8a6a0aba02c5c5f38baf5c823fdfd9e42d657e,
  0xf2911386501d9ab9d720cf8ad10503d5634bf4b7d12b56dfb74fecc6e4093f68,
  0xc6f2bdd52b81e6e4f6595abd4d7fb31f651169d00ff326926b34947b28a83959,
  0x293d94b18c98bb3223366b8ce74c28fbdf28e1f84a3350b0eb2d1804a577579b,
  0x2c2fa5c0b51533165bc375c22e2781768270a383985d13bd6b67b6fd67f889eb,
  0xcaa09b82b72562e43f4b2275c091918e624d911661cc811bb5faec51f6088ef7,
  0x24761e45e674395379fb17729c78cb939e6f74c5dffb9c961f495982c3ed1fe3,
  0x55b70a82131ec94888d7ab54a7c515255c3938bb10bc784dc9b67f076e341a73,
  0x6ab9057b977ebc3ca4d4ce74506c25cccdc566497c450b5415a39486f8657a03,
  0x24066deee0ecee15a45f0a326d0f8dbc79761ebb93cf8c0377af440978fcf994,
  0x20000d3f66ba76860d5a950688b9aa0d76cfea59b005d859914b1a46653a939b,
  0xb92daa79603e3bdbc3bfe0f419e409b2ea10dc435beefe2959da16895d5dca1c,
  0xe947948705b206d572b0e8f62f66a6551cbd6bc305d26ce7539a12f9aadf7571,
  0x3d67c1b3f9b23910e3d35e6b0f2ccf44a0b540a45c18ba3c36264dd48e96af6a,
  0xc7558babda04bccb764d0bbf3358425141902d22391d9f8c59159fec9e49b151,
  0x0b732bb035675a50ff58f2c242e4710aece64670079c13044c79c9b7491f7000,
  0xd120b5ef6d57ebf06eaf96bc933c967b16cbe6e2bf00741c30aa1c54ba64801f,
  0x58d212ad6f58aef0f80116b441e57f6195bfef26b61463edec1183cdb04fe76d,
  0xb8836f51d1e29bdfdba325565360268b8fad627473edecef7eaefee837c74003,
  0xc547a3c124ae5685ffa7b8edaf96ec86f8b2d0d50cee8be3b1f0c76763069d9c,
  0x5d168b769a2f67853d6295f7568be40bb7a16b8d65ba87635d1978d2ab11ba2a,
  0xa2f675dc7302638cb60201064ca55077714d71fe096a315f2fe7401277caa5af,
  0xc8aab5cd0160ae78cd2e8ac5fb0e093cdb5c4b6052a0a97bb04216826fa7a437,
  0xff68ca4035bfeb43fbf145fddd5e43f1cea54f11f7bee13058f027329a4a5fa4,
  0x1d4e5487ae3c740f2ba6e541ac91bc2bfcd2999c518d807b426748803a350fd4,
  0x6d244e1a06ce4ef578dd0f63aff0936706735119ca9c8d22d86c801414ab9741,
  0xdecf7329dbcc827b8fc524c9431e8998029ece12ce93b7b2f3e769a941fb8cea,
  0x2fafcc0f2e63cbd07755be7b75ecea0adff9aa5ede2a52fdab4dfd0374cd483f,
  0xaa85010dd46a546b535ef4cf5f07d65161e89828f3a77db7b9b56f0df59aae45,
  0x07e8e1ee732cb0d356c9c0d1069c89d17adf6a9a334f745ec7867332548ca8e9,
  0x0e01e81cada8162bfd5f8a8c818a6c69fedf02ceb5208523cbe5313b89ca1053,
  0x6bb6c6472655084399852e00249f8cb247896d392b02d73b7f0dd818e1e29b07,
  0x42d4636e2060f08f41c882e76b396b112ef627cc24c43dd5f83a1d1a7ead711a,
  0x4858c9a188b0234fb9a8d47d0b4133650a030bd0611b87c3892e94951f8df852,
  0x3fab3e36988d445a51c8783e531be3a02be40cd04796cfb61d40347442d3f794,
  0xebabc49636bd433d2ec8f0e518732ef8fa21d4d071cc3bc46cd79fa38a28b810,
  0xa1d0343523b893fca84f47feb4a64d350a17d8eef5497ece697d02d79178b591,
  0x262ebfd9130b7d28760d08ef8bfd3b86cdd3b2113d2caef7ea951a303dfa3846,
  0xf76158edd50a154fa78203ed2362932fcb8253aae378903eded1e03f7021a257,
  0x26178e950ac722f67ae56e571b284c0207684a6334a17748a94d260bc5f55274,
  0xc378d1e493b40ef11fe6a15d9c2737a37809634c5abad5b33d7e393b4ae05d03,
  0x984bd8379101be8fd80612d8ea2959a7865ec9718523550107ae3938df32011b,
  0xc6f25a812a144858ac5ced37a93a9f4759ba0b1c0fdc431dce35f9ec1f1f4a99,
  0x924c75c94424ff75e74b8b4e94358958b027b171df5e57899ad0d4dac37353b6,
  0x0af35892a63f45931f6846ed190361cd073089e077165714b50b81a2e3dd9ba1,
  0xcc80cefb26c3b2b0daef233e606d5ffc80fa17427d18e30489673e06ef4b87f7,
  0xc2f8c8117447f3978b0818dcf6f70116ac56fd184dd1278494e103fc6d74a887,
  0xbdecf6bfc1ba0df6e862c831992207796acc797968358828c06e7a51e090098f,
  0x24d1a26e3dab02fe4572d2aa7dbd3ec30f0693db26f273d0ab2cb0c13b5e6451,
  0xec56f58b09299a300b140565d7d3e68782b6e2fbeb4b7ea97ac057989061dd3f,
  0x11a437c1aba3c119ddfab31b3e8c841deeeb913ef57f7e48f2c9cf5a28fa42bc,
  0x53c7e6114b850a2cb496c9b3c69a623eaea2cb1d33dd817e4765edaa6823c228,
  0x154c3e96fee5db14f8773e18af14857913509da999b46cdd3d4c169760c83ad2,
  0x40b9916f093e027a8786641818920620472fbcf68f701d1b680632e6996bded3,
  0x24c4cbba07119831a726b05305d96da02ff8b148f0da440fe233bcaa32c72f6f,
  0x5d201510250020b783689688abbf8ecf2594a96a08f2bfec6ce0574465dded71,
  0x043b97e336ee6fdbbe2b50f22af83275a4084805d2d5645962454b6c9b8053a0,
  0x564835cbaea774948568be36cf52fcdd83934eb0a27512dbe3e2db47b9e6635a,
  0xf21c33f47bde40a2a101c9cde8027aaf61a3137de2422b30035a04c270894183,
  0x9db0ef74e66cbb842eb0e07343a03c5c567e372b3f23b943c788a4f250f67891,
  0xab8d08655ff1d3fe8758d562235fd23e7cf9dcaad658872a49e5d3183b6ccebd,
  0x6f27f77e7bcf46a1e963ade0309733543031dccdd47caac174d7d27ce8077e8b,
  0xe3cd54da7e444caa6207569525a670ebae1278de4e3fe2684b3e33f5ef90cc1b,
  0xb2c3e33a51d22c4c08fc0989c873c9cc4150579b1e6163fa694ad51d53d712dc,
  0xbe7fda983e13189b4c77e0a80920b6e0e0ea80c3b84dbe7e7117d253f48112f4,
  0xb6008c28fae08aa427e5bd3aad36f10021f16c77cfeabed07f97cc7dc1f1284a,
  0x6e4e6760c538f2e97b3adbfbbcde57f8966b7ea8fcb5bf7efec913fd2a2b0c55,
  0x4ae51fd1834aa5bd9a6f7ec39fc663338dc5d2e20761566d90cc68b1cb875ed8,
  0xb673aad75ab1fdb5401abfa1bf89f3add2ebc468df3624a478f4fe859d8d55e2,
  0x13c9471a9855913539836660398da0f3f99ada08479c69d1b7fcaa3461dd7e59,
  0x2c11f4a7f99a1d23a58bb636350fe849f29cbac1b2a1112d9f1ed5bc5b313ccd,
  0xc7d3c0706b11ae741c05a1ef150dd65b5494d6d54c9a86e2617854e6aeeebbd9,
  0x194e10c93893afa064c3ac04c0dd808d791c3d4b7556e89d8d9cb225c4b33339,
  0x6fc4988b8f78546b1688991845908f134b6a482e6994b3d48317bf08db292185,
  0x5665beb8b0955525813b5981cd142ed4d03fba38a6f3e5ad268e0cc270d1cd11,
  0xb883d68f5fe51936431ba4256738053b1d0426d4cb64b16e83badc5e9fbe3b81,
  0x53e7b27ea59c2f6dbb50769e43554df35af89f4822d0466b007dd6f6deafff02,
  0x1f1a0229d4640f01901588d9dec22d13fc3eb34a61b32938efbf5334b2800afa,
  0xc2b405afa0fa6668852aee4d88040853fab800e72b57581418e5506f214c7d1f,
  0xc08aa1c286d709fdc7473744977188c895ba011014247e4efa8d07e78fec695c,
  0xf03f5789d3336b80d002d59fdf918bdb775b00956ed5528e86aa994acb38fe2d]

/-- BLAKE2s, key 00 01 … 1f. -/
def keyedS : List Nat := [
  0x48a8997da407876b3d79c0d92325ad3b89cbb754d86ab71aee047ad345fd2c49,
  0x40d15fee7c328830166ac3f918650f807e7e01e177258cdc0a39b11f598066f1,
  0x6bb71300644cd3991b26ccd4d274acd1adeab8b1d7914546c1198bbe9fc9d803,
  0x1d220dbe2ee134661fdf6d9e74b41704710556f2f6e5a091b227697445dbea6b,
  0xf6c3fbadb4cc687a0064a5be6e791bec63b868ad62fba61b3757ef9ca52e05b2,
  0x49c1f21188dfd769aea0e911dd6b41f14dab109d2b85977aa3088b5c707e8598,
  0xfdd8993dcd43f696d44f3cea0ff35345234ec8ee083eb3cada017c7f78c17143,
  0xe6c8125637438d0905b749f46560ac89fd471cf8692e28fab982f73f019b83a9,
  0x19fc8ca6979d60e6edd3b4541e2f967ced740df6ec1eaebbfe813832e96b2974,
  0xa6ad777ce881b52bb5a4421ab6cdd2dfba13e963652d4d6d122aee46548c14a7,
  0xf5c4b2ba1a00781b13aba0425242c69cb1552f3f71a9a3bb22b4a6b4277b46dd,
  0xe33c4c9bd0cc7e45c80e65c77fa5997fec7002738541509e68a9423891e822a3,
  0xfba16169b2c3ee105be6e1e650e5cbf40746b6753d036ab55179014ad7ef6651,
  0xf5c4bec6d62fc608bf41cc115f16d61c7efd3ff6c65692bbe0afffb1fede7475,
  0xa4862e76db847f05ba17ede5da4e7f91b5925cf1ad4ba12732c3995742a5cd6e,
  0x65f4b860cd15b38ef814a1a804314a55be953caa65fd758ad989ff34a41c1eea,
  0x19ba234f0a4f38637d1839f9d9f76ad91c8522307143c97d5f93f69274cec9a7,
  0x1a67186ca4a5cb8e65fca0e2ecbc5ddc14ae381bb8bffeb9e0a103449e3ef03c,
  0xafbea317b5a2e89c0bd90ccf5d7fd0ed57fe585e4be3271b0a6bf0f5786b0f26,
  0xf1b01558ce541262f5ec34299d6fb4090009e3434be2f49105cf46af4d2d4124,
  0x13a0a0c86335635eaa74ca2d5d488c797bbb4f47dc07105015ed6a1f3309efce,
  0x1580afeebebb346f94d59fe62da0b79237ead7b1491f5667a90e45edf6ca8b03,
  0x20be1a875b38c573dd7faaa0de489d655c11efb6a552698e07a2d331b5f655c3,
  0xbe1fe3c4c04018c54c4a0f6b9a2ed3c53abe3a9f76b4d26de56fc9ae95059a99,
  0xe3e3ace537eb3edd8463d9ad3582e13cf86533ffde43d668dd2e93bbdbd7195a,
  0x110c50c0bf2c6e7aeb7e435d92d132ab6655168e78a2decdec3330777684d9c1,
  0xe9ba8f505c9c80c08666a701f3367e6cc665f34b22e73c3c0417eb1c2206082f,
  0x26cd66fca02379c76df12317052bcafd6cd8c3a7b890d805f36c49989782433a,
  0x213f3596d6e3a5d0e9932cd2159146015e2abc949f4729ee2632fe1edb78d337,
  0x1015d70108e03be1c702fe97253607d14aee591f2413ea6787427b6459ff219a,
  0x3ca989de10cfe609909472c8d35610805b2f977734cf652cc64b3bfc882d5d89,
  0xb6156f72d380ee9ea6acd190464f2307a5c179ef01fd71f99f2d0f7a57360aea,
  0xc03bc642b20959cbe133a0303e0c1abff3e31ec8e1a328ec8565c36decff5265,
  0x2c3e08176f760c6264c3a2cd66fec6c3d78de43fc192457b2a4a660a1e0eb22b,
  0xf738c02f3c1b190c512b1a32deabf353728e0e9ab034490e3c3409946a97aeec,
  0x8b1880df301cc963418811088964839287ff7fe31c49ea6ebd9e48bdeee497c5,
  0x1e75cb21c60989020375f1a7a242839f0b0b68973a4c2a05cf7555ed5aaec4c1,
  0x62bf8a9c32a5bccf290b6c474d75b2a2a4093f1a9e27139433a8f2b3bce7b8d7,
  0x166c8350d3173b5e702b783dfd33c66ee0432742e9b92b997fd23c60dc6756ca,
  0x044a14d822a90cacf2f5a101428adc8f4109386ccb158bf905c8618b8ee24ec3,
  0x387d397ea43a994be84d2d544afbe481a2000f55252696bba2c50c8ebd101347,
  0x56f8ccf1f86409b46ce36166ae9165138441577589db08cbc5f66ca29743b9fd,
  0x9706c092b04d91f53dff91fa37b7493d28b576b5d710469df79401662236fc03,
  0x877968686c068ce2f7e2adcff68bf8748edf3cf862cfb4d3947a3106958054e3,
  0x8817e5719879acf7024787eccdb271035566cfa333e049407c0178ccc57a5b9f,
  0x8938249e4b50cadaccdf5b18621326cbb15253e33a20f5636e995d72478de472,
  0xf164abba4963a44d107257e3232d90aca5e66a1408248c51741e991db5227756,
  0xd05563e2b1cba0c4a2a1e8bde3a1a0d9f5b40c85a070d6f5fb21066ead5d0601,
  0x03fbb16384f0a3866f4c3117877666efbf124597564b293d4aab0d269fabddfa,
  0x5fa8486ac0e52964d1881bbe338eb54be2f719549224892057b4da04ba8b3475,
  0xcdfabcee46911111236a31708b2539d71fc211d9b09c0d8530a11e1dbf6eed01,
  0x4f82de03b9504793b82a07a0bdcdff314d759e7b62d26b784946b0d36f916f52,
  0x259ec7f173bcc76a0994c967b4f5f024c56057fb79c965c4fae41875f06a0e4c,
  0x193cc8e7c3e08bb30f5437aa27ade1f142369b246a675b2383e6da9b49a9809e,
  0x5c10896f0e2856b2a2eee0fe4a2c1633565d18f0e93e1fab26c373e8f829654d,
  0xf16012d93f28851a1eb989f5d0b43f3f39ca73c9a62d5181bff237536bd348c3,
  0x2966b3cfae1e44ea996dc5d686cf25fa053fb6f67201b9e46eade85d0ad6b806,
  0xddb8782485e900bc60bcf4c33a6fd585680cc683d516efa03eb9985fad8715fb,
  0x4c4d6e71aea05786413148fc7a786b0ecaf582cff1209f5a809fba8504ce662c,
  0xfb4c5e86d7b2229b99b8ba6d94c247ef964aa3a2bae8edc77569f28dbbff2d4e,
  0xe94f526de9019633ecd54ac6120f23958d7718f1e7717bf329211a4faeed4e6d,
  0xcbd6660a10db3f23f7a03d4b9d4044c7932b2801ac89d60bc9eb92d65a46c2a0,
  0x8818bbd3db4dc123b25cbba5f54c2bc4b3fcf9bf7d7a7709f4ae588b267c4ece,
  0xc65382513f07460da39833cb666c5ed82e61b9e998f4b0c4287cee56c3cc9bcd,
  0x8975b0577fd35566d750b362b0897a26c399136df07bababbde6203ff2954ed4,
  0x21fe0ceb0052be7fb0f004187cacd7de67fa6eb0938d927677f2398c132317a8,
  0x2ef73f3c26f12d93889f3c78b6a66c1d52b649dc9e856e2c172ea7c58ac2b5e3,
  0x388a3cd56d73867abb5f8401492b6e2681eb69851e767fd84210a56076fb3dd3,
  0xaf533e022fc9439e4e3cb838ecd18692232adf6fe9839526d3c3dd1b71910b1a,
  0x751c09d41a9343882a81cd13ee40818d12eb44c6c7f40df16e4aea8fab91972a,
  0x5b73ddb68d9d2b0aa265a07988d6b88ae9aac582af83032f8a9b21a2e1b7bf18,
  0x3da29126c7c5d7f43e64242a79feaa4ef3459cdeccc898ed59a97f6ec93b9dab,
  0x566dc920293da5cb4fe0aa8abda8bbf56f552313bff19046641e3615c1e3ed3f,
  0x4115bea02f73f97f629e5c5590720c01e7e449ae2a6697d4d2783321303692f9,
  0x4ce08f4762468a7670012164878d68340c52a35e66c1884d5c864889abc96677,
  0x81ea0b7804124e0c22ea5fc71104a2afcb52a1fa816f3ecb7dcb5d9dea1786d0,
  0xfe362733b05f6bedaf9379d7f7936ede209b1f8323c3922549d9e73681b5db7b,
  0xeff37d30dfd20359be4e73fdf40d27734b3df90a97a55ed745297294ca85d09f,
  0x172ffc67153d12e0ca76a8b6cd5d4731885b39ce0cac93a8972a18006c8b8baf,
  0xc47957f1cc88e83ef9445839709a480a036bed5f88ac0fcc8e1e703ffaac132c,
  0x30f3548370cfdceda5c37b569b6175e799eef1a62aaa943245ae7669c227a7b5,
  0xc95dcb3cf1f27d0eef2f25d2413870904a877c4a56c2de1e83e2bc2ae2e46821,
  0xd5d0b5d705434cd46b185749f66bfb5836dcdf6ee549a2b7a4aee7f58007caaf,
  0xbbc124a712f15d07c300e05b668389a439c91777f721f8320c1c9078066d2c7e,
  0xa451b48c35a6c7854cfaae60262e76990816382ac0667e5a5c9e1b46c4342ddf,
  0xb0d150fb55e778d01147f0b5d89d99ecb20ff07e5e6760d6b645eb5b654c622b,
  0x34f737c0ab219951eee89a9f8dac299c9d4c38f33fa494c5c6eefc92b6db08bc,
  0x1a62cc3a00800dcbd99891080c1e098458193a8cc9f970ea99fbeff00318c289,
  0xcfce55ebafc840d7ae48281c7fd57ec8b482d4b704437495495ac414cf4a374b,
  0x6746facf71146d999dabd05d093ae586648d1ee28e72617b99d0f0086e1e45bf,
  0x571ced283b3f23b4e750bf12a2caf1781847bd890e43603cdc5976102b7bb11b,
  0xcfcb765b048e35022c5d089d26e85a36b005a2b80493d03a144e09f409b6afd1,
  0x4050c7a27705bb27f42089b299f3cbe5054ead68727e8ef9318ce6f25cd6f31d,
  0x184070bd5d265fbdc142cd1c5cd0d7e414e70369a266d627c8fba84fa5e84c34,
  0x9edda9a4443902a9588c0d0ccc62b930218479a6841e6fe7d43003f04b1fd643,
  0xe412feef7908324a6da1841629f35d3d358642019310ec57c614836b63d30763,
  0x1a2b8edff3f9acc1554fcbae3cf1d6298c6462e22e5eb0259684f835012bd13f,
  0x288c4ad9b9409762ea07c24a41f04f69a7d74bee2d95435374bde946d7241c7b,
  0x805691bb286748cfb591d3aebe7e6f4e4dc6e2808c65143cc004e4eb6fd09d43,
  0xd4ac8d3a0afc6cfa7b460ae3001baeb36dadb37da07d2e8ac91822df348aed3d,
  0xc376617014d20158bced3d3ba552b6eccf84e62aa3eb650e90029c84d13eea69,
  0xc41f09f43cecae7293d6007ca0a357087d5ae59be500c1cd5b289ee810c7b082,
  0x03d1ced1fba5c39155c44b7765cb760c78708dcfc80b0bd8ade3a56da8830b29,
  0x09bde6f152218dc92c41d7f45387e63e5869d807ec70b821405dbd884b7fcf4b,
  0x71c9036e18179b90b37d39e9f05eb89cc5fc341fd7c477d0d7493285faca08a4,
  0x5916833ebb05cd919ca7fe83b692d3205bef72392b2cf6bb0a6d43f994f95f11,
  0xf63aab3ec641b3b024964c2b437c04f6043c4c7e0279239995401958f86bbe54,
  0xf172b180bfb09740493120b6326cbdc561e477def9bbcfd28cc8c1c5e3379a31,
  0xcb9b89cc18381dd9141ade588654d4e6a231d5bf49d4d59ac27d869cbe100cf3,
  0x7bd8815046fdd810a923e1984aaebdcdf84d87c8992d68b5eeb460f93eb3c8d7,
  0x607be66862fd08ee5b19facac09dfdbcd40c312101d66e6ebd2b841f1b9a9325,
  0x9fe03bbe69ab1834f5219b0da88a08b30a66c5913f0151963c360560db0387b3,
  0x90a83585717b75f0e9b725e055eeeeb9e7a028ea7e6cbc07b20917ec0363e38c,
  0x336ea0530f4a7469126e0218587ebbde3358a0b31c29d200f7dc7eb15c6aadd8,
  0xa79e76dc0abca4396f0747cd7b748df913007626b1d659da0c1f78b9303d01a3,
  0x44e78a773756e0951519504d7038d28d0213a37e0ce375371757bc996311e3b8,
  0x77ac012a3f754dcfeab5eb996be9cd2d1f96111b6e49f3994df181f28569d825,
  0xce5a10db6fccdaf140aaa4ded6250a9c06e9222bc9f9f3658a4aff935f2b9f3a,
  0xecc203a7fe2be4abd55bb53e6e673572e0078da8cd375ef430cc97f9f80083af,
  0x14a5186de9d7a18b0412b8563e51cc5433840b4a129a8ff963b33a3c4afe8ebb,
  0x13f8ef95cb86e6a638931c8e107673eb76ba10d7c2cd70b9d9920bbeed929409,
  0x0b338f4ee12f2dfcb78713377941e0b0632152581d1332516e4a2cab1942cca4,
  0xeaab0ec37b3b8ab796e9f57238de14a264a076f3887d86e29bb5906db5a00e02,
  0x23cb68b8c0e6dc26dc27766ddc0a13a99438fd55617aa4095d8f969720c872df,
  0x091d8ee30d6f2968d46b687dd65292665742de0bb83dcc0004c72ce10007a549,
  0x7f507abc6d19ba00c065a876ec5657868882d18a221bc46c7a6912541f5bc7ba,
  0xa0607c24e14e8c223db0d70b4d30ee88014d603f437e9e02aa7dafa3cdfbad94,
  0xddbfea75cc467882eb3483ce5e2e756a4f4701b76b445519e89f22d60fa86e06,
  0x0c311f38c35a4fb90d651c289d486856cd1413df9b0677f53ece2cd9e477c60a,
  0x46a73a8dd3e70f59d3942c01df599def783c9da82fd83222cd662b53dce7dbdf,
  0xad038ff9b14de84a801e4e621ce5df029dd93520d0c2fa38bff176a8b1d1698c,
  0xab70c5dfbd1ea817fed0cd067293abf319e5d7901c2141d5d99b23f03a38e748,
  0x1fffda67932b73c8ecaf009a3491a026953babfe1f663b0697c3c4ae8b2e7dcb,
  0xb0d2cc19472dd57f2b17efc03c8d58c2283dbb19da572f7755855aa9794317a0,
  0xa0d19a6ee33979c325510e276622df41f71583d07501b87071129a0ad94732a5,
  0x724642a7032d1062b89e52bea34b75df7d8fe772d9fe3c93ddf3c4545ab5a99b,
  0xade5eaa7e61f672d587ea03dae7d7b55229c01d06bc0a5701436cbd18366a626,
  0x013b31ebd228fcdda51fabb03bb02d60ac20ca215aafa83bdd855e3755a35f0b,
  0x332ed40bb10dde3c954a75d7b8999d4b26a1c063c1dc6e32c1d91bab7bbb7d16,
  0xc7a197b3a05b566bcc9facd20e441d6f6c2860ac9651cd51d6b9d2cdeeea0390,
  0xbd9cf64ea8953c037108e6f654914f3958b68e29c16700dc184d94a21708ff60,
  0x8835b0ac021151df716474ce27ce4d3c15f0b2dab48003cf3f3efd0945106b9a,
  0x3bfefa3301aa55c080190cffda8eae51d9af488b4c1f24c3d9a75242fd8ea01d,
  0x08284d14993cd47d53ebaecf0df0478cc182c89c00e1859c84851686ddf2c1b7,
  0x1ed7ef9f04c2ac8db6a864db131087f27065098e69c3fe78718d9b947f4a39d0,
  0xc161f2dcd57e9c1439b31a9dd43d8f3d7dd8f0eb7cfac6fb25a0f28e306f0661,
  0xc01969ad34c52caf3dc4d80d19735c29731ac6e7a92085ab9250c48dea48a3fc,
  0x1720b3655619d2a52b3521ae0e49e345cb3389ebd6208acaf9f13fdacca8be49,
  0x756288361c83e24c617cf95c905b22d017cdc86f0bf1d658f4756c7379873b7f,
  0xe7d0eda3452693b752abcda1b55e276f82698f5f1605403eff830bea0071a394,
  0x2c82ecaa6b84803e044af63118afe544687cb6e6c7df49ed762dfd7c8693a1bc,
  0x6136cbf4b441056fa1e2722498125d6ded45e17b52143959c7f4d4e395218ac2,
  0x721d3245aafef27f6a624f47954b6c255079526ffa25e9ff77e5dcff473b1597,
  0x9dd2fbd8cef16c353c0ac21191d509eb28dd9e3e0d8cea5d26ca839393851c3a,
  0xb2394ceacdebf21bf9df2ced98e58f1c3a4bbbff660dd900f62202d6785cc46e,
  0x57089f222749ad7871765f062b114f43ba20ec56422a8b1e3f87192c0ea718c6,
  0xe49a9459961cd33cdf4aae1b1078a5dea7c040e0fea340c93a724872fc4af806,
  0xede67f720effd2ca9c88994152d0201dee6b0a2d2c077aca6dae29f73f8b6309,
  0xe0f434bf22e3088039c21f719ffc67f0f2cb5e98a7a0194c76e96bf4e8e17e61,
  0x277c04e2853484a4eba910ad336d01b477b67cc200c59f3c8d77eef8494f29cd,
  0x156d5747d0c99c7f27097d7b7e002b2e185cb72d8dd7eb424a0321528161219f,
  0x20ddd1ed9b1ca803946d64a83ae4659da67fba7a1a3eddb1e103c0f5e03e3a2c,
  0xf0af604d3dabbf9a0f2a7d3dda6bd38bba72c6d09be494fcef713ff10189b6e6,
  0x9802bb87def4cc10c4a5fd49aa58dfe2f3fddb46b4708814ead81d23ba95139b,
  0x4f8ce1e51d2fe7f24043a904d898ebfc91975418753413aa099b795ecb35cedb,
  0xbddc6514d7ee6ace0a4ac1d0e068112288cbcf560454642705630177cba608bd,
  0xd635994f6291517b0281ffdd496afa862712e5b3c4e52e4cd5fdae8c0e72fb08,
  0x878d9ca600cf87e769cc305c1b35255186615a73a0da613b5f1c98dbf81283ea,
  0xa64ebe5dc185de9fdde7607b6998702eb23456184957307d2fa72e87a47702d6,
  0xce50eab7b5eb52bdc9ad8e5a480ab780ca9320e44360b1fe37e03f2f7ad7de01,
  0xeeddb7c0db6e30abe66d79e327511e61fcebbc29f159b40a86b046ecf0513823,
  0x787fc93440c1ec96b5ad01c16cf77916a1405f9426356ec921d8dff3ea63b7e0,
  0x7f0d5eab47eefda696c0bf0fbf86ab216fce461e9303aba6ac374120e890e8df,
  0xb68004b42f14ad029f4c2e03b1d5eb76d57160e26476d21131bef20ada7d27f4,
  0xb0c4eb18ae250b51a41382ead92d0dc7455f9379fc9884428e4770608db0faec,
  0xf92b7a870c059f4d46464c824ec96355140bdce681322cc3a992ff103e3fea52,
  0x5364312614813398cc525d4c4e146edeb371265fba19133a2c3d2159298a1742,
  0xf6620e68d37fb2af5000fc28e23b832297ecd8bce99e8be4d04e85309e3d3374,
  0x5316a27969d7fe04ff27b283961bffc3bf5dfb32fb6a89d101c6c3b1937c2871,
  0x81d1664fdf3cb33c24eebac0bd64244b77c4abea90bbe8b5ee0b2aafcf2d6a53,
  0x345782f295b0880352e924a0467b5fbc3e8f3bfbc3c7e48b67091fb5e80a9442,
  0x794111ea6cd65e311f74ee41d476cb632ce1e4b051dc1d9e9d061a19e1d0bb49,
  0x2a85daf6138816b99bf8d08ba2114b7ab07975a78420c1a3b06a777c22dd8bcb,
  0x89b0d5f289ec16401a069a960d0b093e625da3cf41ee29b59b930c5820145455,
  0xd0fdcb543943fc27d20864f52181471b942cc77ca675bcb30df31d358ef7b1eb,
  0xb17ea8d77063c709d4dc6b879413c343e3790e9e62ca85b7900b086f6b75c672,
  0xe71a3e2c274db842d92114f217e2c0eac8b45093fdfd9df4ca7162394862d501,
  0xc0476759ab7aa333234f6b44f5fd858390ec23694c622cb986e769c78edd733e,
  0x9ab8eabb1416434d85391341d56993c55458167d4418b19a0f2ad8b79a83a75b,
  0x7992d0bbb15e23826f443e00505d68d3ed7372995a5c3e498654102fbcd0964e,
  0xc021b30085151435df33b007ccecc69df1269f39ba25092bed59d932ac0fdc28,
  0x91a25ec0ec0d9a567f89c4bfe1a65a0e432d07064b4190e27dfb81901fd3139b,
  0x5950d39a23e1545f301270aa1a12f2e6c453776e4d6355de425cc153f9818867,
  0xd79f14720c610af179a3765d4b7c0968f977962dbf655b521272b6f1e194488e,
  0xe9531bfc8b02995aeaa75ba27031fadbcbf4a0dab8961d9296cd7e84d25d6006,
  0x34e9c26a01d7f16181b454a9d1623c233cb99d31c694656e9413aca3e918692f,
  0xd9d7422f437bd439ddd4d883dae2a08350173414be78155133fff1964c3d7972,
  0x4aee0c7aaf075414ff1793ead7eaca601775c615dbd60b640b0a9f0ce505d435,
  0x6bfdd15459c83b99f096bfb49ee87b063d69c1974c6928acfcfb4099f8c4ef67,
  0x9fd1c408fd75c336193a2a14d94f6af5adf050b80387b4b010fb29f4cc72707c,
  0x13c88480a5d00d6c8c7ad2110d76a82d9b70f4fa6696d4e5dd42a066dcaf9920,
  0x820e725ee25fe8fd3a8d5abe4c46c3ba889de6fa9191aa22ba67d5705421542b,
  0x32d93a0eb02f42fbbcaf2bad0085b282e46046a4df7ad10657c9d6476375b93e,
  0xadc5187905b1669cd8ec9c721e1953786b9d89a9bae30780f1e1eab24a00523c,
  0xe90756ff7f9ad810b239a10ced2cf9b2284354c1f8c7e0accc2461dc796d6e89,
  0x1251f76e56978481875359801db589a0b22f86d8d634dc04506f322ed78f17e8,
  0x3afa899fd980e73ecb7f4d8b8f291dc9af796bc65d27f974c6f193c9191a09fd,
  0xaa305be26e5deddc3c1010cbc213f95f051c785c5b431e6a7cd048f161787528,
  0x8ea1884ff32e9d10f039b407d0d44e7e670abd884aeee0fb757ae94eaa97373d,
  0xd482b2155d4dec6b4736a1f1617b53aaa37310277d3fef0c37ad41768fc235b4,
  0x4d413971387e7a8898a8dc2a27500778539ea214a2dfe9b3d7e8ebdce5cf3db3,
  0x696e5d46e6c57e8796e4735d08916e0b7929b3cf298c296d22e9d3019653371c,
  0x1f5647c1d3b088228885865c8940908bf40d1a8272821973b160008e7a3ce2eb,
  0xb6e76c330f021a5bda65875010b0edf09126c0f510ea849048192003aef4c61c,
  0x3cd952a0beada41abb424ce47f94b42be64e1ffb0fd0782276807946d0d0bc55,
  0x98d92677439b41b7bb513312afb92bcc8ee968b2e3b238cecb9b0f34c9bb63d0,
  0xecbca2cf08ae57d517ad16158a32bfa7dc0382eaeda128e91886734c24a0b29d,
  0x942cc7c0b52e2b16a4b89fa4fc7e0bf609e29a08c1a8543452b77c7bfd11bb28,
  0x8a065d8b61a0dffb170d5627735a76b0e9506037808cba16c345007c9f79cf8f,
  0x1b9fa19714659c78ff413871849215361029ac802b1cbcd54e408bd87287f81f,
  0x8dab071bcd6c7292a9ef727b4ae0d86713301da8618d9a48adce55f303a869a1,
  0x8253e3e7c7b684b9cb2beb014ce330ff3d99d17abbdbabe4f4d674ded53ffc6b,
  0xf195f321e9e3d6bd7d074504dd2ab0e6241f92e784b1aa271ff648b1cab6d7f6,
  0x27e4cc72090f241266476a7c09495f2db153d5bcbd761903ef79275ec56b2ed8,
  0x899c2405788e25b99a1846355e646d77cf400083415f7dc5afe69d6e17c00023,
  0xa59b78c4905744076bfee894de707d4f120b5c6893ea0400297d0bb834727632,
  0x59dc78b105649707a2bb4419c48f005400d3973de3736610230435b10424b24f,
  0xc0149d1d7e7a6353a6d906efe728f2f329fe14a4149a3ea77609bc42b975ddfa,
  0xa32f241474a6c16932e9243be0cf09bcdc7e0ca0e7a6a1b9b1a0f01e41502377,
  0xb239b2e4f81841361c1339f68e2c359f929af9ad9f34e01aab4631ad6d5500b0,
  0x85fb419c7002a3e0b4b6ea093b4c1ac6936645b65dac5ac15a8528b7b94c1754,
  0x9619720625f190b93a3fad186ab314189633c0d3a01e6f9bc8c4a8f82f383dbf,
  0x7d620d90fe69fa469a6538388970a1aa09bb48a2d59b347b97e8ce71f48c7f46,
  0x294383568596fb37c75bbacd979c5ff6f20a556bf8879cc72924855df9b8240e,
  0x16b18ab314359c2b833c1c6986d48c55a9fc97cde9a3c1f10a3177140f73f738,
  0x8cbbdd14bc33f04cf45813e4a153a273d36adad5ce71f499eeb87fb8ac63b729,
  0x69c9a498db174ecaefcc5a3ac9fdedf0f813a5bec727f1e775babdec7718816e,
  0xb462c3be40448f1d4f80626254e535b08bc9cdcff599a768578d4b2881a8e3f0,
  0x553e9d9c5f360ac0b74a7d44e5a391dad4ced03e0c24183b7e8ecabdf1715a64,
  0x7a7c55a56fa9ae51e655e01975d8a6ff4ae9e4b486fcbe4eac044588f245ebea,
  0x2afdf3c82abc4867f5de111286c2b3be7d6e48657ba923cfbf101a6dfcf9db9a,
  0x41037d2edcdce0c49b7fb4a6aa0999ca66976c7483afe631d4eda283144f6dfc,
  0xc4466f8497ca2eeb4583a0b08e9d9ac74395709fda109d24f2e4462196779c5d,
  0x75f609338aa67d969a2ae2a2362b2da9d77c695dfd1df7224a6901db932c3364,
  0x68606ceb989d5488fc7cf649f3d7c272ef055da1a93faecd55fe06f6967098ca,
  0x44346bdeb7e052f6255048f0d9b42c425bab9c3dd24168212c3ecf1ebf34e6ae,
  0x8e9cf6e1f366471f2ac7d2ee9b5e6266fda71f8f2e4109f2237ed5f8813fc718,
  0x84bbeb8406d250951f8c1b3e86a7c010082921833dfd9555a2f909b1086eb4b8,
  0xee666f3eef0f7e2a9c222958c97eaf35f51ced393d714485ab09a069340fdf88,
  0xc153d34a65c47b4a62c5cacf24010975d0356b2f32c8f5da530d338816ad5de6,
  0x9fc5450109e1b779f6c7ae79d56c27635c8dd426c5a9d54e2578db989b8c3b4e,
  0xd12bf3732ef4af5c22fa90356af8fc50fcb40f8f2ea5c8594737a3b3d5abdbd7,
  0x11030b9289bba5af65260672ab6fee88b87420acef4a1789a2073b7ec2f2a09e,
  0x69cb192b8444005c8c0ceb12c846860768188cda0aec27a9c8a55cdee2123632,
  0xdb444c15597b5f1a03d1f9edd16e4a9f43a667cc275175dfa2b704e3bb1a9b83,
  0x3fb735061abc519dfe979e54c1ee5bfad0a9d858b3315bad34bde999efd724dd]

/-- BLAKE2sp, no key. -/
def plainSp : List Nat := [
  0xdd0e891776933f43c7d032b08a917e25741f8aa9a12c12e1cac8801500f2ca4f,
  0xa6b9eecc25227ad788c99d3f236debc8da408849e9a5178978727a81457f7239,
  0xdacadece7a8e6bf3abfe324ca695436984b8195d29f6bbd896e41e18e21c9145,
  0xed14413b40da689f1f7fed2b08dff45b8092db5ec2c3610e02724d202f423c46,
  0x9b8a527b5272250a1ec397388f040914954806e794db04b70a4611bc59586a83,
  0x2bb6333729000be3d5a21b98f8e7ead077f151a5393919eb67c876ee00bbbb04,
  0x63c01408154ad19d7fb739f311781780462cf2eecce60f064e853487c272e3eb,
  0x3d051a1176019ca37bf33d60427f8d9d1c3abd598297cfb4235f747d7c7c7fec,
  0x391ea912df4d4d79a4646d9da2549a446d2240f62415d070a2e093992b471fba,
  0x324640440ea5c3082ddc309e7809d741d6cc1b2d490ff8c052128a6eeb409d62,
  0xab855e6fa39a5e8fc90eacb999c7f78ae71e59c3d97d60afe517d587923b7711,
  0x2a39da4586efc47785a7a8da85683a51724cdef5413b356dc4fb500513f8fa2e,
  0x8a0057c1f78ad6214555c0670733e29a4c7e956227660efeb1d7fc79f58ec6f2,
  0x0764b0017f5bd951f01d9fdf95c0cb4138985d84799cd42984e25b512800e73c,
  0xcc02495693c8e184ad2ed09d533dc33b76a7783d6207fcaccb64f3ed2c6d66e0,
  0xc0df49c206a34288143216847df334d4569dad73c2b1ff6284884fd38941fb95,
  0xb9194519e4978a9dc893b28bd808cdfabb1bd510d862b3171ff6e017a41b804c,
  0xbba927acf11bebd362a3a3eb78c4bb65e602a8709fcef38dc6c8b7bda664c32c,
  0xecb4900a63924e720d40f2d2b14d1bb39c3701ad7346bd0b67234270bfbe7e70,
  0xf8315a21b25e6ba8bf59b17b05913b8ca4659f1cd838fcc773c9eb12e7004e09,
  0x4b77af67a9232bf1184e57818294031e55f1f853c94dbab5577547330d65aa61,
  0x768568390fd2b87094114ed4cf723ea320fe977b53180305c384335479f0b59b,
  0xa431cb270f3e2c9b7a9593b155ccecff5b5c4a2dcd5d6bb1c485aa286997f915,
  0xd691fa6a790b1a517980087f50b03ded8c6ed486d084221c827d9bd922beb8c0,
  0x8f978a4932f4459813e8fe15686e4efa25c2c5ff5a3a4f8c9b14965d2f0be461,
  0x1efbd0c131449142f2295f2d42411dfe0f48d4acae762d8df67a570bf7b1dcd5,
  0xd53ba93346143ab8e0d3d1bf272706d169e66c69c7b8f4a5e82fef440702bcf2,
  0xf71a3ec01aa382ea76992b430a7f42c7ad2a86aea9c19e76cd1732ec6830de6f,
  0x80a6ab7b710464f93e6cba96864aa6409bcafc1bf4b32a309372e857e804068c,
  0xdbde81e51a52174b1014901b53bef88de93b29e274347e8e9a7b037456629f35,
  0x75f274466b1a2d0fd845bbb57c38c989516e1568320ab517b163eaf709234cc7,
  0xafe1a0591c491d416eb64f6286f3ba29d4c9998214a3831c39014ac030557945,
  0x67ff6acdbe8a99a166a5d9cf32136506b548d6c947c24c699cea3afd92adfaca,
  0xbfb4d0c7112075262c2dd248f334b2ef1540087ecc7382bc2a272575c5009f70,
  0x17c94b9c537243f2335b863949b2b91c98a6956d7c10aa989959a80f910c2522,
  0xf6338f434d319410196d9519abcaeff7d55439fd2aa5babf7a7e7913b294ed4d,
  0x08ef7d65f9bbf3da1f7884ae9b75901fd85295662a6ea71de08bee3834576278,
  0x1647ecc2ba13f8b93b2fbcdc4e8f1dfa47fe3be12aaa0e459b0e5a87f3a69bb0,
  0xff927a717881f6fd8ed8bf5d5e35bd80161573e5829404c32d2a276a01f4b906,
  0xc8caf136ff209c82e0240c1e62a3bc7e9cac873b011cf7c5e67ec187a5fbcd96,
  0xd9acc73e3f421e1883b5ed53d82a9aec8f5dc980c42bcaeb0e7d8976a338ef51,
  0x9f173fcf08a5362193f352c8256ae534ae9ce7bfa4bc09fac90098f98a716294,
  0x0a724579dc80bc0c9004e51be7eff3afa53075ab4a32557733586e820fd36423,
  0x38f7c340f4b159b1e594f6eb83284917b7aa19c74f57117a4e08cf7c4e32a23c,
  0x1c674be257e9b33134d4168f152f8b63dfd780c97dc4dc37ac26cc0aefb79c1a,
  0x2f0c597616d5751714a5fb4ebf3c481a96c3ad145ebde06509f3a2e5f2c13fc8,
  0xfddc69e0c983cd8283ed8188bec4e5f41dea3d01b9e74c4baf7341d8b4bf553d,
  0x24d083cba038c87e9acb8681820208b75cb3293a96c9efa75d2c63f16b85fe1e,
  0x7f6a649cca89b253ffbd20c016980100a87c168109628fcc66525d8baafe505f,
  0x6da373b4c18792b3209add15a5074a1d70c10bb39480ca3fe5c439d95fc286ca,
  0x270affa6426f1a515c9b76dfc27d181fc2fd57d082a3ba2c1eef071533a6dfb7,
  0xc22e15cfc5a3d14b64d131f35fb35dd5e6c57dc4afc552277501eca764da74bf,
  0xad683e96b8ac658c4f3f10ad22d99b07cb5ef9e31cbe11e7f7dc29f2aee5024c,
  0x78d3ceda1ce05293f430f6167b33c99f0b1d6dade52143c2925577c0ba8253eb,
  0xe006456344f90f501c25813f9be2a3f40b9874fa0563981cd456ee8d44807c93,
  0x3908e8d547c0afb1134949466304a145027e6bb7a74dd1c162cdf0bcf77237e8,
  0x1b6c87a34838c7cd5fd08914224e90c22abf5a97b10646d98c4916d3a8939e62,
  0xb0d38f82f248916952b316b6d36d9e022df6eecc26c762a655cf5f0ae649e2bd,
  0x8d66fc9ceda5eddfb1e04d096ca70ef50650fb87cc6a9ffbb3d20bce7b5a6074,
  0x064354e8e11cf713b2c72ba67ac7d76e41ba61db9c2dea522e0bda17cba5e392,
  0xc8ef5f498bd1bc707fbc7b5cbc2dff0493144ac52786db3c793ef4ae8a838847,
  0x8a2397df31e7f0cc290da9a8bbe4f5f7a3a13750730db62dc2540fdbd6188589,
  0xf12d0b13c6adfb3be50a51eb6baf65abfb1700baa87e527dbe3e675a7a994661,
  0x1024c940be7341449b5010522b509f65bbdc1287b455c2bb7f72b2c92fd0d189,
  0x52603b6cbfad4966cb044cb267568385cf35f21e6c45cf30aed19832cb51e9f5,
  0xfff24d3cc729d395daf978b0157306cb495797e6c8dca1731d2f6f81b849baae,
  0x41eee90d47ec2772cd352dfd67e0605fbdfc5fd6d826451e3d064d3828bd3bae,
  0x300b6b36e59f851dddc29bfa93082520cd77c51e007e00d2d78b26f4af961532,
  0x9ef30314834e401c871a2004e38d5ce32ed28e1137f1970f4f4378c73706763d,
  0x3fbdcde7b64304025ec0582609031ec266d50f56835ae0cb72d8cdb4cfaf4419,
  0xe90ead3b982b435b66366a496c3f8ae65b17613700f547673f62153541912864,
  0xabe3547b336d6e240d7fe682d74b9cc7e8d7f9b5664858b94df59e9fc330d9e5,
  0xb299642095b8286c521cdb21ed0fe057278021bb4038eb5a3d79542f5d751f54,
  0xe4d758359f086793a83754aca6968c3e9fd94b40497f2ec224a2916063a214a3,
  0x59a304fc03ab75d557db04ebd02dd4c6b810a138bbfeea5dfceeaa2b75b06491,
  0x3995102215f5fe9210eb30d952d8c919589e7145fcd495ea78d02b9c148faf09,
  0x472ee711563506a5f0083fe82b08b9923cf6c8404d0cbacbf84864f648542ac0,
  0x68fdb82adae79bef590aba62d7ac553212061c36e36f12c0efa29a1762de3b6a,
  0x7585c0773383f174fd666549a8352b305bf6855bc98bea28c391b3c034da5a5a,
  0xacc575fe2cd7ba2a31fc7d670a9234af68503386e959073d16a81b33b922b50e,
  0x9ec7d2995943d39d6b971493b897a0ee2d3392a72db875c2405d357178fb6911,
  0x2d7ef19401425aba450e82d36d0fe7b2085ea0af6045a5994cf431ea59939cc9,
  0xf32fd855f011c718027f2ebe377d6939f12370caff151c1e5ace438d703c6d9f,
  0xb2bd83d2310d3d7b1d2d5aaf4359fae28612962719fdde4ddaf69e7820f33f61,
  0x1a7a9d0f44ddfa7fc2f4770cad7422fa6c4e37e6cb036d899e102750e594ffcd,
  0xdc69f6141c8e103ff61f6298a2c44f52d147366ddbd9c79cc308fe84336a9564,
  0xe34ed417b0791d9a77ee1e50cc2c207e540c77140421c46ce0862878aaeb2709,
  0x2174425c8ccae398c4ff06f848991c5e9bc0f3461111706fb95d0be1c68e4760,
  0x1894582a8a25fe8f847a4a032574b77b8b36bf19997526bb4bc85f3824537feb,
  0x17ed188ae3c953d655445983b8325bafff32e222b2dfeb16e8617abf86ee7cc5,
  0xf1489ad1c354cde9789237ea6dbf67fc1e44d1acc8dc66ad838727f47d9a91fe,
  0x367f22165b8b66e97f6670f34eba2749d2643b21beadadfefea2574b7c9b2196,
  0x3d8dfea17eea5d645ac1d41a5b59226c486c36bd77ed44bb349170d080e30e68,
  0x4115f89e0b3b5c8f6122c02500171dcffbcea4662a8c5f8c1c01a9ca7b1027bb,
  0xed6e910b960255d7d792ebe67f260a143cfac1051dfc059025ee0c1bfcbc5681,
  0x558fa8afa12bbee54af78f6b7445f99665d4e356bc07d3effd8fd65ab9c74716,
  0x5b6012762053b8734af0e555e6a2bb4fd4840af3b04fcf6350a2b8a51b6796ad,
  0xab7acca5d77710bad37ba0ff4ceae27e847179f7fd7aec8869c649b33f8d2577,
  0xff7730b474ec2145a92dd1cffe45c342c6fd6bac580ff95a75eda3bf90eb4f01,
  0xd10f061d5b9cb44ee078a96b3318579e5ef50aef3ed96e4f62149b2e9f7c660c,
  0x67d22b8edf2001d86422136ac6516cf39f7fc6a7029892fd75c98790964a720b,
  0x7a5ec5ba76259b07b4da03f381fe7bea4865c86c424abaa0dd1ecf74f87d2ac0,
  0xe0ff60d69029e6bd1c15953e91509c0c59ed5da5000199f216d29f96079c2fef,
  0xfc13ead841018f59903b40f2020c6638a66a54c3a338414d97a5c394f3266f33,
  0x0c2f62b898fb2f63617e787345263cb9cf60654b553b203ee49dcbb8f2a6afac,
  0xd7d6cb552aeb36eb96b1d5e052f8d921c3245a970d0bc8410cd65ea104c8e779,
  0xb7141f305efdfee556bd13e0400d1e8cfd6548bf81ee5d15327e4995ca8ad6fd,
  0xb6b638d22b7a12825374f70348d7448d4e7d908cf6e7bbef8c93ef679b2a5478,
  0x0df4585641fa09f6cba4cc165a10adde34f80d425a70db67e2fd237b627f438a,
  0x106b2b354d95acecd0d9588fbc231f8bea2e94ea662ddd3f139e1b6787461eed,
  0xae5c69eefe9089b29c6c1a2370d20552ba40c3d5e3713c12defcae997f433ecd,
  0x1aaef55d4fa892b635fb2a7a25f9a8e03b9ffb082ae9c07c2042a049c6515e45,
  0x297daac4d54dc41c83e32394599f171cdaa9ddb71726da4ece3ccf95c11f56df,
  0x2c45acf491ec2f4b7e309e7edd815be5a54c4458d1a57c4f9b763b0c6718d43e,
  0x2f92f90170d3ae95abfac3a6989a2a60cb28b858782be7ea179b48a7276dd860,
  0xb401e84b15acc470936d6e37f7888333092731133b251bea221658ca19a75669,
  0xf8b340d2b9b33d43a0a66f3497820afaaee434c4e3c0c17e898b8301c57a26bd,
  0x566da283990389138aa6f2aaa3b9e40cbf90840ec762bd96b7e33a3113b10108,
  0x340672b704676042c9bf3f337ba79f11336aebb5ec5d31df54eb6ad3b0430442,
  0x5050b73b9316eea2f149bffd22aee384dc5403b18e16fa88825e181609496fd2,
  0x1365cc6fb9260e86889b3afbd1c8bc12923197715db266cc7a01ca57159f7596,
  0x29466f51c011fd10181494a9379b6159b808ae0fcb0161f8f07909ff041b1965,
  0x6591a3c3c767b38d805ed3f7eb6763e8b3d2d642e7307745cd3418eff69a19ed,
  0x1d84b04b1338b0d2e3c98f7aea3e98effc530a5044b93b96c67ee379d62e815f,
  0x6fa295272532e983e166b12e4999c052f89d9f30ae1481f3d60eae85f8ee178a,
  0x4ed8caa98ec39f6a629f9a654a447e7e3e4faeecf34dcf658d2d4b98b7a2ec1a,
  0xcfab8299a0da0c2a7e8ff54d0a676d141ab26bc0012e5f668e85d814bc9888b0,
  0xa626543c271fccc3e4450b48d66bc9cbdeb25e5d077a6213cd90cbbd0fd22076,
  0x05cf3a90049116dc60efc31536aaa3d167762994892876dcb7ef3fbecd7449c0,
  0xccd61c926cc1e5e9128c021c0c6e92aefc4ffbde394dd6f3b7d87a8ced896014,
  0x3ffa4f6dafa57f1c50f1afa4f81292ae71a06fe4f8ff46c51d32ff2613489f2b,
  0x19d3921cfc0f1a2bb813b3dfa96df90e2c6b87d78e9238f85bbc77ae9a73f98f,
  0xf5c916ff2badde3e29a5f940233ea34007d8f182a48a808b46bb8058003f1903,
  0x6ba07a1af758e682d3e09add2d3dcdf35d9553f6799854a27e536063c57f81a5,
  0xb78378fb446c544b04d4a152ac49573161b3ddebf69386770a55a7d47b880e5d,
  0xb519538fe1626f0c595945ada58a344faac0061761cc9d4a841419bd32eec0d9,
  0x96e488b027896413f4034b0354f48484f6cfc10f8ec57b026fd21a3b88361a74,
  0x770c8a5f47bfd769ced35a71afc3ca1ff4c1f1e7cc3d2356de945004368d8145,
  0x6df9d8d0d3a8d98c8350d7162bd15579d5707add7611a00eeb6ca5743ed78cb7,
  0x4f0fe8fc17901591cf348730e187de523d6d7568c1fbd82485913985eb67971c,
  0x0ef3bb35cf372bd94e3f80eecebd50ef0d0308e01e0ed6de0f5a8a8c818a0074,
  0xc038d3e809a5e3a58db2f91c15ae12439578f75485cd84f556c6971e8e250620,
  0xce399a0f08277d8d4816095060ebbf33da016fb43a6c356d5a3fe4bb574c5e7b,
  0x869f7e316b194f9531bcaf33f7913f1b9cfc6bb5dcf86b692bf8cab29b8aa96f,
  0x327dfa464459d9e48f5e55c7f5baa68fc4a25ad622bc7bf01aca82fd5e72314c,
  0xe00dad3151b9085eae786984fe20735232b7ff7f1b1db7961fd0d0e0f605db9a,
  0x076f644520d0b4732d6c531c9349089026936d99820461da87749a520fbe90ce,
  0xb4414ca1373be46f15cea6b1255a7d1886c6fdb08ed5af9657d5aac317de3a29,
  0x8d1ab0263dab7b86ecee219162d999a01245572269de31100e5d88fc1b1eaa69,
  0xb48d1c1f83924a02a23e5e0f971e16e87fc4884853833485191a2b60722fe269,
  0xf2edd5f750a20a541d3f6bd5df80838f11825b25a98f3da5e1523bff813bb560,
  0x07166004ef88e1614ebdc887dfc7da42ebcda02d92c12f18d1186ce3c98710e4,
  0x69f83aa101d69b8f1220dc1c538d8934458420be335feb46ffc47a2c8e2e6a8a,
  0xe1469f16c6fca15119a272e585c7f50421bc8a414c864fc76b01048d4c6fc5d2,
  0x6763343a1c80f19283a80af854e7e9065c2a8349ef11f11bfb76ba9f97048539,
  0x1ae3a0b8b2c7885ba318ad6fd449fc4d7f8404b59cf3275fcdea13563425772d,
  0x3a71184cbe8eb58e6812ba7a7a1dca0ca28eec63782f2e6e3c0b87073f533ffd,
  0x184ccf2a52f388c9f897a857fe7ccec2959911a8d1e09ee8804d8d5d508dd918,
  0xa66d409af7afd75be831dd498c196ef12c73c31129ec02d5f12ab02a2c63a25e,
  0x58b37497fcf0be0e0cf1734045c295b286c76a7c048e87c54028ed36915b5df3,
  0x2c7333540a832d64456e43058c50d93c932ad9b18b3fc3a0599207cda3b3c7a6,
  0x3dc062ffb57d835fe3aa409466822f9186918423947505165fdcdfb7306f7259,
  0x89204844acb92f353bfc89a3ce8a9817219c101385c593cf60e0befa9638e14e,
  0x782ba902e91232941c78c49cd9771a5d9992f9b07d9c0a2df82d385d15c42bb3,
  0x0dc3ff7df0dfc023763d7634e18da27393fc9fdb1c154646861075f0a87d0e90,
  0xb95c65fb6f254edbde8c037d5c8b2039340f4ac2b023a6aa28a8fcd2d2689cf4,
  0x87e8f51572a5d6a239f85bc53e1174e15be12fcdf151a0b9a2b43640caf74c1d,
  0x2a6f3e462c405c354fe80fccced1c9be44325d29e07da30960b625a76ea42f83,
  0x20b46c8fbfca97453262460f8498a7e2af15ac79b59ddfb027bb52f2d68e8f51,
  0x31b0763cb9ba92403dca1abdd7342d7de94c581e76f7c9a61e515928e10b4e77,
  0xe191e117063cfac9642cd93cb42b39eddd9e4ab65f1d0397e3e17dd04cab1180,
  0x225a202107a74703e041c6cca4eacf4f21eea6f22a146d8da2ab8cf6197229a5,
  0xefc4836be4ac3e9791d2ec62226e7df64118f4565c19e6c9e84063f5661c7b2f,
  0x3a76b0152c0e1d1fd7ac9d91a28a18e1a4c06080f2b7ecefb6effe28b8cfc765,
  0x0d46ad039070115828f94eb6b72963e60a7d2db7ca8991d225c3877b149b0a8a,
  0xe44cfc42118f096bfc51521cb18d5d6525586b989f4ee2b828c5199feab94b82,
  0x6d4bd2e073ec4966847f5cbe88ddfaba2be4caf2f333552b8553da533487c25b,
  0xbbc46db437d107c967ca6d91455bbdfe052118abd1d069f04359487e13aea0e1,
  0xb974c14db7d3174dd06084bb303108b2f0daf50eccc3293543795c9636c62482,
  0x0eee235b06936aed7173c8c19aa7c217b9eedaeb1a88f30552e9225145149e82,
  0x36d089e025b5686937742825e6ee3d83e7d7a50c823c82883460f385147dc17b,
  0x77ee4ffc9f5dd605470dc0e74d6b17c5130d8b73913f36d5f8787e619a947ca0,
  0x0fe6c2ab754233360d68b9ac80cd61184bfaa7d356294180025fe40639c76c36,
  0x996088c79456ecdda1fbc02ee1ba42d91d858c310a5a8b4674fe6a7c144414a1,
  0x9e338aed0bc71c0c97f19855bf49174f70a9d77014873663213427502bd85d9f,
  0x4a843d26adec520e4b5dbf0145cc4f5024fafcdc2025824a8c64650617687ee7,
  0xc91678c4a64e2fa4b74de61ad0c06ff06b5d672fa7c6877a4014ce9e91be38d7,
  0xff7777405d327adb58301c711ecdc2bce1bfa829ffc9b117f21a2b198d0d6884,
  0x0a8ddaf1728c5cd93a255d5623c3dada2d3d0571bf1438adc8c964a9aad118cb,
  0xc133abbd0d2d808a67b6745b4b3650b4a64dc276cf98e30357b6abd5c1d22a9b,
  0xc59ee5c196ba3cfef94087798207bdcef139ce2cf78dced6198f0fa3a409131c,
  0xc7fdade59c4699385eba59e756c2b171b023deae082e5a6e3bfbdc1073a32003,
  0x975327c5f4dec6414b6e00cb042337b8d2a6564637a7442aec7be8f8c89a2f1c,
  0xa2f7246df4a24efbacd3fd60683abc868bef25327052cf2f1d93ece4ffcd73c6,
  0x497fb2acacf123f3595e40fc51a7bd24458bbcba4a2940a5cb03d608fbdf2825,
  0x0e97d22793ce6f283d5c740d308a27ad7c3b0d9afcd3d9e9b9cac56b10290c8f,
  0x6630b35618e700d910683893795ef70bf07eb156f55ffe3b69ad88a4b8b0bfa1,
  0x02f742c6e95278121a05e44205444fc5ea6af5e741c535bc2cbc3b235a2ea2b0,
  0x4622f36eb898383f60d5bed809ac5c4745c5d6ab84bcadf79cf2a96d4ec88818,
  0xccd11faaa0581ec32c3a403f92ef43d5dcf195c1a101dbfd495dbb4dce8069e0,
  0x06024d6b07e000bce613470a2880519b8be4a36bf33c99c917893ec75dd90fe3,
  0xd93af947b1463a817db441a474588d6f996d243983e83c7eee90e1efa440d9ba,
  0x94898945a7db259e1b2e7cbea48aa0c6d6570d18179f0618471c88f3ec3b0fc3,
  0x4c2d935256392aa2be6e1078c0593815abef469de969b57b881b93af558465fa,
  0xaac7be16e52f790e4ff70b24015cb11b40616e94db13882b41d3dd8c8c1952b7,
  0x0434b47c0ee7e6f53906799a43209d3fc37d3fd1f74555de67abacb951b006f4,
  0x0442fbdd5b58496ec78159ccaa887c88a861fcca70e7abc976f24c11588be6ee,
  0xa73e68bb18b007648e76b5528d1e50e7fa654da3970ec349bf591a30d932c8f6,
  0x849cf873162ba72c4b8008e68f932fb3a015a74fcf957198d56a0dc4625a74f5,
  0xa6dec6fc8949349c4e9a9c623687fba4c9b275bdb230509b72e3d6711914e2d8,
  0x58afc2b24a19fdbf76a09b70b1e3b77fcbd4065001d9636640eb5a2628f442cc,
  0x473a43aa1d6a028767432a830ad1221e029c589af9fd4d68d56c4fb820259352,
  0xa0aeb4a5ad899af2e291b2e79dbb6b0bf56b5844676b955d945b6c4ae1c01eed,
  0xcfc3029a9eeb152222d96653492e46ca64ca4f0d64683028d3aee5a49cb47163,
  0x7467cf7761cd9f55618d30c9d8c5b41e4701510c7d16ab4e5d89a5d77146b092,
  0xc016d8424e531efc5737c03fc90a5efc9f9022e4d5ba3b0695f7ae538260c2ee,
  0x5d381189e6000fc117c71f59f786fb4b79fdd4ec5d4cd30aac2157f75dead778,
  0x7c9cdd15c4c9abcacbfe6f664a7f5f8b2e259183291ae5cc9130a0b241e5737f,
  0xb8813172f5218ac3eb687bc4afaff83fbca4e9c1a462963301dd4459850150a2,
  0xe3d130e36a028ea80c57a2aa4819fd34e4dbbeb14a495894b15a8787db1a9f9c,
  0xfff1b4400f489e07d22351c1f09565e265b68ad29f6329879e6b5f7f6b419350,
  0x559ed5bb3e5f3985fb578228bf8c0f0b173f8d1153faeb9fec756ffd18a87238,
  0x88131253014d23c5e38e78bda19455d8a023bd7a7e727457a152a81d0b1718a7,
  0xf4d3fae7cde6bb66715a198fa48d210c10f8df3204ae5e33a602467f1b622685,
  0xe62b622ac8a21366bf2ded30f4082a53e77a9aa696b1f3ee8cfe99c59312d9c7,
  0x3d39ffa85512c3c8890d4bdf31889ca66e5cecb63cfeed57b9263708e74c550b,
  0xb1703b8a00e2612497d11c649d150a6c963bf4fd38feb1c381fe0d9b04c02b22,
  0x12fbad9d3782812d71179a50fbd9b4566c7b06f5d77c6f329717fb4ae2c5b4ec,
  0x768b659a824b43f9ca5660b9ddf05f8ba2bc4993866b7c9be68791f5b24644b3,
  0xc0204e23ca86be205eed0cc3dd7225ce5ffe1ee12dacb93c5d0629b7699cd733,
  0xf43296961f8eaeccd854413dc5adda62393a344627e86c066e7907550040744f,
  0x82f4469e80789021c61db7e32f36acbe591a64f26059265770ae658d62bde7ef,
  0x2a85671a55c89fa156e296f75df1c7dbab178ebba65204a7e8178c916ad087f8,
  0x33e245002808f6934b9be3a6fa8e8670c90baa625717b9201eb9b9dd912f5ce2,
  0x58ee5e799184ad9da9a17c5b46a4810e28bdd08c3581634c835030539b79544d,
  0x26d8fa08db308edf2f96f82af6b60c17d8f1ff858c52f2d0f3831078127526a3,
  0x25a58df4039247a22f68ff2b71766b7b5600ddf401d99ff2c1955ae7bb43e56a,
  0xbe43e8686160e907ba547d5a879d10f788afc842b8ebb9f3f788532515912ae4,
  0xaa4acb95d879192a6908e88ae3d6589f4e3eb3d4e03a806ccdb9b5d6a9586fdf,
  0x8466d5e44ce95b4fa179992444b8c2485b886448a6dccfcf0bc30bc5f0f56b01,
  0x0056d7e0ac33355783659b38ec8beccbf783939967fe37aeacf369ddb670ada0,
  0x904f42f345530ac8a352d09b6872c5bca3661abca6ca64c8099f2fb6867c30fe,
  0xa8c3bf46f0b88bbd16fda4a8b5ca81f5243520c385d38c0b4d2352ab34ea35e6,
  0x8d3317fc606e566d302edab55e801611d8c13f4a9a19d185978def72839cdaa3,
  0x97388011f57a498690ec7988eff903ff9b2358f5b61baa20f73290d6296c1c0b,
  0xcfb80cab8990950809123fbf85e976454708e0afed698e3352a31635909db3e5,
  0x0daaca55132a235b831a5eff4ea467cd10af44200847735a1ffd51fa37eaa2a2,
  0x69b21497ebb824ba665368188825e6f6f14cf2c3f7b5530bb34fa658eed9a739,
  0xb9a19f509be03fbc40e243a58a3ded11f0d51f80e3e29a505644cc05743814ec,
  0xc4bcb2002555d544fd0b02770623891e70eeec7744865dd6455ad665cc82e861,
  0x912d24dc3d6923a483c263eba81b7a8797f23cbf2f78b51e2226639f84a59047,
  0x56827a18883afdf9ceec562b2066d8acb2c19505ece6f7a83e9f3346cbb828c9,
  0x251d8d09fc48dd1d6af8ffdf395091a46e05b8b7c5ec0c79b68a8904c827bdea,
  0xc2d14d69fd0bbd1c0fe8c845d5fd6a8f740151b1d8eb4d26364bb02dae0c13bc,
  0x2e5fe21f8f1b6397a38a603d60b6f53c3b5db20aa56c6d44bebd4828ce28f90f,
  0x25059f10605e67adfe681350666e15ae976a5a571c13cf5bc8053f430e120a52]

/-- BLAKE2sp, key 00 01 … 1f. -/
def keyedSp : List Nat := [
  0x715cb13895aeb678f6124160bff21465b30f4f6874193fc851b4621043f09cc6,
  0x40578ffa52bf51ae1866f4284d3a157fc1bcd36ac13cbdcb0377e4d0cd0b6603,
  0x67e3097545bad7e852d74d4eb548eca7c219c202a7d088db0efeac0eac304249,
  0x8dbcc0589a3d17296a7a58e2f1eff0e2aa4210b58d1f88b86d7ba5f29dd3b583,
  0xa9a9652c8c677594c87212d89d5a75fb31ef4f47c6582cde5f1ef66bd494533a,
  0x05a7180e595054739948c5e338c95fe0b7fc61ac58a73574745633bbc1f77031,
  0x814de83153b8d75dfade29fd39ac72dd09ca0f9bc8b7ab6a06baee7dd0f9f083,
  0xdfd419449129ff604f0a148b4c7d68f1174f7d0f8c8d2ce77f448fd3419c6fb0,
  0xb9ed22e7dd8dd14ee8c95b20e7632e8553a268d9ff8633ed3c21d1b8c9a70be1,
  0x95f031671a4e3c54441cee9dbef4b7aca44618a3a333ad7406d197ac5ba0791a,
  0xe2925b9d5ca0ff6288c5ea1af2d22b0a6b79e2dae08bfd36c3be10bb8d71d839,
  0x16249c744e4951451d4c894fb59a3ecb3fbfb7a45f96f85d1580ac0b842d96da,
  0x432bc91c52aceb9daed8832881648650c1b81d117abd68e08451508a63be0081,
  0xcde8202bcfa3f3e95d79bacc165d52700ef71d874a3c637e634f644473720d6b,
  0x1621621f5c3ee446899d3c8aae4917b1e6db4a0ed042315fb2c174825e0a1819,
  0x336e8ebc71e2095c27f864a3121efd0faa7a41285725a592f61beded9dde86ed,
  0x079be0410e789b36ee7f55c19faac691656eb0521f42949b84ee29fe2a0e7f36,
  0x17270c4f3488082d9ff9937eab3ca99c97c5b4596147372dd4e98acf13db2810,
  0x183c38754d0341ce07c17a6cb6c2fd8bbcc1404fdd014199c78be1a97559a928,
  0x6e52d728a405a6e1f87587bbc2ac91c5c09b2d828ac81e5c4a81d03dd4aa8d5c,
  0xf4e08e059b74144bf948146d14a2c81e46dc15ff26eb52344cdd474abea14bc0,
  0x0f2e0a100ed8a11785962ad4596af955e30b9aef930a248da9322b702d4b6872,
  0x5190fcc732f404aad4364ac7960cfd5b4e348629c372eeb325b5c6c7cbce59ab,
  0xc0c4cb86ea25ea957eec5b22d2550a1649e6dffa316bb8f4c91b8ff7a24b2531,
  0x2c9eda135a30aecaf3acb3d23a3035fbabba98333165d87fcbf8fe10336ecf20,
  0x3cd669e8d56262a2371367224dae6d759ee152c31533b263fa2e64920877b2a7,
  0x18a9a0c2d0ea6c3bb332830f8918b0684f5d3994df4867462dd06ef0862424cc,
  0x7390ea4104a9f4eea90f81e26a129dcf9f4af38352d9cb6a812cc8056909050e,
  0xe49e0114c629b494b11ea98ecd4032731f153b4650acacd7e0f6e7de3df01977,
  0x27c5702be104b3a94fc43423aeee83ac3ca73b7f87839a6b2e29607903b7f287,
  0x81d2e12eb2f42760c6e3baa78f84073ae6f5616070fe25bede7c7c8248ab1fba,
  0xfab235d59348ab8ce49bec77c0f19328fd045dfd608a530336df4f94e172a5c8,
  0x8aaa8d805c58881ff379fbd42c6bf6f14c6c73df8071b3b228981109ccc015f9,
  0x91fdd262203916394740952bce72b64babb6f721344dee8250bf0e46f1ba188f,
  0xf7e57b8f85f47d5903ad4ccb8af62a3e858aab2b8cc226494f7b00bedbf5b0d0,
  0xf76f21addae96a9646fc06f9bf52ae0848f18c3526b129e15b2c355e2e79e5da,
  0x8aeb1c795f3490015ef4cd61a2807b230efdc8460173dad026a4a0fcc2fbf22a,
  0xc564ffc623077765bb9787585654ce745dbd108cef248ab00ad1a2647d990387,
  0xfe8942a3e5f5e8cd705104f88210726e53dd7eb3f9a202bf9314b3b9065eb712,
  0xdc295359d436eea78084e7b077fe09b19c5bf3d2a796dab019e4200599fd8202,
  0x70b3f72f749032e25e383b964378ea1c543e9c15de3a27d86d2a9d2231eff48a,
  0x7982b54c08db2bfb6f45f35bc323bc093779b6bb0e3eea3e8c98b1de99d3c55e,
  0x75e4162257014bedcc05c2944dce0df0c35eba131954064f6e4e095fd08445ee,
  0x4a129ea6cdbabc2d392479372f975b9cf5a1b7deb69a3266f03ebc6d111393c4,
  0x8fed70f27955dc8ad9f1b7b3f6f5dfbd962a33592b42de856d421e2912bab86b,
  0xe2f20660376f2b1839667cbfe5e16ef075ac3943644f3532282f8bb0723b9986,
  0xabf84c913a83df98c70029819c065f6d6de4f6d43abf600dade035b23bed7baa,
  0x459c15d4856c7ecf82620351c3c1c76c403f3e9707741387e299073fb1704b2b,
  0x9ab912eda0768abdf826b6e05d0d735839e6a5f02e04c4cc75650b2c8cab6749,
  0x4740ebecac90031bb7e68e51c55391afb189b317f2de558766f78f5cb71f81b6,
  0x3cc47f0ef64821587c937cddba85c993d3ce2dd0ced40d3be33cb7dc7edabcf1,
  0x9f476a22db54d6bb9befdb260c66578ae1d8a5f87d3d8c017fdb7475080fa8e1,
  0x8b68c6fb0706a795f3a839d6fe25fd4aa7f92e664f762d615381bc859afa292c,
  0xf640d225a6bcd2fc8accafbed5a84b5bbb5d8ae5db06a10b6d9d93160b392ee0,
  0x704860a7f5ba68db27031c15f225500d692ab247534281c4f684f6c6c8cd88c7,
  0xc1a75bdda12b8b2ab1b924843858183a09d202421fdbcdf0e63eae46f37d91ed,
  0x9a8cab7a5f2e576221a6a85e5fddee75678e065324a61db03a39261ddf75e3f4,
  0x05c2b26b03ce6ca5871be0de84ee2786a79bcd9f30033e819b4a87cca27afc6a,
  0xb0b0993c6d0c6ed5c3590480f865f467f4331a58dd8e47bd98ebbcdb8eb4f94d,
  0xe57c103cf7b6bbeb8a0dc8f048625c3f4ce4f1a5ad4d079c1187bfe9ee3b8a5f,
  0xf10023e15f3b72b738ad61ae65ab9a07e7774e2d7ab02dba4e0caf5602c80178,
  0x9a8fb3b538c1d6c45051fa9ed9b07d3e89b4430330014a1efa2823c0823cf237,
  0x3075c5bc7c3ad7e3920101bc6899c58ea70167a7772ca28e38e2c1b0d325e5a0,
  0xe85594700e3922a1e8e41eb8b064e7ac6d949d13b5a34523e5a6beac03c8ab29,
  0x1d3701a5661bd31ab20562bd07b74dd19ac8f3524b73ce7bc996b788afd2f317,
  0x874e1938033d7d383597a2a65f58b554e41106f6d1d50e9ba0eb685f6b6da071,
  0x93f2f3d69b2d36529556eccaf9f99adbe895e1572231e649b50584b5d7d08af8,
  0x06e06d610f2eebba3676823e7744d751aff73076ed65f3cff5e72fd227999c77,
  0x8df757b3a1e0f480fa76c7f358ed0398be3f2a8f7b90ea8c807599deda1d0534,
  0xeec9c5c63cc5169d967bb1624e9ee5ced92897736efbd157548d82e87cc72f25,
  0xcc2b5832ad272cc55c10d4f8c7f8bb38e6e4eb922f9386830f90b1e3da3937d5,
  0x368985d5387c0bfc928ac254fa6d16673e70947566961b5fb3325a588ab3173a,
  0xf1e442afb872151f8134956c548ae3240d07e6e338d4a7a6af8da4119ab0e2b0,
  0xb012c7546a39c40cadece4e04e7f33c593ad182ebc5a46d2dbf4ad1a92f59e7b,
  0x6c6097cd2033096b4df317de8a908b7d0c7294390c5a399c301bf2a2652e8262,
  0xba83feb510b49ade4faefbe942781eafd41ad5d436888531b68859f22c2d164a,
  0x5a069e4392195ac9d284a47f3bd854af8fd0d7fdc3483d2c5f3424ccfda15c8e,
  0x7e88d64bbbe2024f4454ba1398b3d8652dcec820b14c3b0abfbf0f4f3306bb5e,
  0xf8742ff46dfdf3ec8264f9945b20419462f069e833c594ec80ffac5e7e5134f9,
  0xd3e0b738d2e92f3c47c794666609c0f5504f67ec4e760eeeccf8644e68333411,
  0x0c90ce10edf0ce1d47eeb50b5b7aff8ee8a43b64a889c1c6c6b8e31a3cfc45ee,
  0x83917ac1cdade8f0e3bf426feac1388b3fcbe3e1bf98798c8158bf758e8d5d4e,
  0xdc8eb0c013fa9d064ee37623369fb394af974b1aac82405b88976cd8fca12530,
  0x9af4fc92ea8d6b5fe7990e3a02701ec22b2dfd7100b90d0551869417955e44c8,
  0xc722cec131baa163f47e4b339e1fb9b4aca248c4759345eadbd6c6a7ddb50477,
  0x1837b120d4e4046c6de8ccaf09f1caf302ad56234e6b422ce90a61bf06aee43d,
  0x87ac9d0f8a0b11bfedd6991a6daf34c8aa5d7e8ae1b9df4af738005fe78ce93c,
  0xe21fb668ebb8bf2d82086dedcb3a5371c2c46fa1ac11d2e2c566d14ad3c3653f,
  0x5a9a69815e4d3eb772ed908fe658ce5087310ec1d50cb94f5628339a61dcd9ee,
  0xaac285f1208f70a64797d0a9400da64653301838fef6690b87cda9159ee07ef4,
  0x05643c1c6f265925a65093f9de8a191c4f6fd1418fbf66be8059a91ba8dcda61,
  0x1c6cde5b78103c9e6f046dfe30f5121cf9d4039efe222540a41bbc06e469feb6,
  0xb49bb46d1b193b045e7412059fe72d552552a8fb6c36410723dc7d05fcceded3,
  0xb612d3d21fc4de3c791af735e59fb717d839723b42508e9ebf7806d93e9c837f,
  0x7c3390a3e5cb27d1868ba455cfeb3222fde27bcda4bf248e3d29cf1f34329f25,
  0xbd42eea7b35486cdd0907cb4712ede2f4deeccbca191603865a1cc809f12b446,
  0xd1dd6201740cfaad53ceccb756b110f3d50f817b43d7559557e57aad143a85d9,
  0x5829643c1b10e1c8ccf20c9b4af821ea052d7f0f7c22f7380bbbcfafb977e21f,
  0xfc4cf2a7fbe0b1e8aefbe4b4b79ed84ec97b034f51b4e97f760b20639765b933,
  0x4d7c3b3438a0bda28e7a96e42027d813e88ae62885499833d3c5f6359ef7edbc,
  0x34cbd32068ef7e82099e580bf9e26423e981e31b1bbce61aeab14c32a273e4cb,
  0xa05dda7d0da9e094ae22533f79e7dccd26b1757cefb95bcf62c4ff9c2692e1c0,
  0x224ccffa7cca4ce34afd47f62ade53c5e8489b04ac9c41f7fad0c8edeb89e941,
  0x6bc6076483aa11c07fba55c0f9a1b5da87ecbffea75598cc318a514cec7b3b6a,
  0x9a0360e23a22f4f76c0e9528dafd129bb4675fb88d44eaf85777300cec9bcc79,
  0x790199b4ca90dedccfe32474e85b174f069e3542be3104c1125c2fdbd69d32c7,
  0x55839925834ca3e825e99241874d16d6c2623629c4c2adddf0dba01e6ce8a0dc,
  0x615ff846d993007d38de1aecb3178289ded09e6bb5cbd60f69c6aa36383020f7,
  0xf0e40b4ed40d34851e72b4ee4d00ea6a40ea1c1bf9e5c269710c9d51cbb8a3c9,
  0x0b07b2333b08d08c11ca34ab449b71d29a0f43e1f778e073e79006ccb730ed62,
  0xd1f4c29d9f23ea35ec4035b377d506538e728bc739c1459680cf1cc69424924d,
  0x1279cf6f669f92f6bfc25d605b9440c7dccbd25df28dc7353abc1c0530405dc4,
  0x1fa0af00775dc2ce76506d3280f472d2f6ff97a2151faa827942fea44ad0ba1f,
  0x3e1ad54a5f835b983bd2aab0ed2a4c0bdd7216209c36a79e9e2aabb99faf3512,
  0xc6ed39e2d8b636eccba245ef4e8864f4cd946be216b9be48303e08b92dd09434,
  0xe24736c13ecb9f36a0d829d4798d7699c14cc65b6dc44ed6f10cd4853d6e0757,
  0x389be88052a381272c6df741a88ad349b712718435480a8190b704771d2de637,
  0x889f2d578a5daefd341c210984e126d1d96da2dee3c81f7a6080bf84569b3114,
  0xe936095b9b982ffc856d2f5276a4e529ec7395da316d628702fb281ada6f3899,
  0xef89ce1d6f8b48ea5cd6aeab6a83d0cc98c9a3a207a1085732f047d94038c288,
  0xf925016d79f2aca8c49edfcd6621d5be3c8cec61bd5871d8c1d3a565f35e0c9f,
  0x63e8634b757a38f92b92fd23893ba299853a8613679fdf7e0511095c0f047bca,
  0xcf2cca0772b705eb57d28943f83d353fe291e5b377780b374c8ba4665830be87,
  0x46df5b87c80e7e4074aee68559424742845b9b350f51ba55b074bbae4c626aab,
  0x658aa4f9d2bcbd4f7f8eb63e68f5367edbc500a0b1fbb41e9df141bcba8fcd53,
  0xee80555008a71655e081092bba6f670ed98af9a09fb5afb94cbc5c754814db4f,
  0x2c5f9d048220b041b6d4524b4490cf8c66fcb8e14b0d64887aa1e4761a602b39,
  0x44cb6311d0750b7e33f7333aa78aaca9c34ad5f79c1b1591ec33951e69c4c461,
  0x0c6ce32a3ea05612c5f8090f6a7e87f5ab30e41b707dcbe54155620ad770a340,
  0xc65938dd3a053c729cf5b7c89f390bfebb5112766bb00aa5fa3164dfdf3b5647,
  0x7de7f0d59a9039aff3aaf32c3ee52e7917535729062168d2490b6b6ce244b380,
  0x895898f53a8f39e42410da77b6c4815b0bb2395e3922f5bed0e1fbf2a4c6dfeb,
  0xc905a84984348a64db1f542083748ad90a4bad9833cb6da387293431f19e7c9c,
  0xed37d1a4d06c90d1957848667e9548febb5d423eab4f56785cc4b5416b780008,
  0x0bc65d9997fb734a561fb1e9f8c0958a02c7a4dbd096ebef1a1751aed959eed7,
  0x7c5f432eb8b7352a9494dea4d53c21387031ce70e85d9408fc6f8cd98a6aaa1e,
  0xb8bf8e2c34e033983639909eaa37640d877b048fe299b470af2d0ba82a5f14c0,
  0x88a9dd13d5dadbdee6bff7ee1ef8c71cc193aa4bf3e84f8fe80cb075683c0779,
  0x9aedb8876dd21c8c84d2e702a13625980462f68bf0a1b7254ad806c38403c9de,
  0xd097573df2d6b2489a479484869800a1f833ea169eff32ae3ce63a2079548d78,
  0xd18f27a3e555d7f91a007c67aceede391f75a61fa42a0b4566eb582ca05ebce7,
  0xdf1daa90b1702313e6a5901c7afc5ed9657717a715fa53a4189ec1e5df293a68,
  0x04e3a496b66996c66e32919ed1f94c36eebbf240633a2f739845f0295d34afba,
  0x8c45d88c4e9c9d0c8c677fe48fa5449ba30178d40af0f0217921c62e4b60cdd3,
  0xe149a6b13bdedea2eeee009ce9445e8dcf76b76e55a501d8f5b43ff896796ad1,
  0xa837c4c7c6f5cfb99e1085fd43287a4105cb28b76fc38b6055c5dcff78b82565,
  0x42411f28780b4f1638540b870521ec45bceb1e0c7131f7e1c4672e436c88c8e9,
  0x34b4e876769471df552e5522cea784fa53ac61bede8cfe291409e68b69e8776f,
  0x8f31d637a91dbd0ecb0ba0e694bec1447658ce6c27ea9b95ff36701caf36f001,
  0xb5c895eb071e3d38528d475d3bb0ba88b71795e40a982e2ac2d84422a0f2685d,
  0xe906257c419d941ed2b8a9c12781db9759a3fcf3dc7cdb031599e1086b672f10,
  0x98ad24397c6eae4cf73ea8bbef5a0b74d21ad15f33920f44070a98bdf53d0b3a,
  0xdd510ca55b1170f9cefdbb16fc145262aa363a870a01e1bc4fbe40234b4b6f2f,
  0xf2d8d931b92e1cb698e56ed02819ea11d26619b83a6209ad67225368fe119571,
  0xe4637055db91f9437cf460ef40b5145f6998266a5e74e96a00782c62cf30cf1c,
  0x3563530a89d32b75f78d83e9872ad4c575f520399d65035ded99e5eec5807150,
  0x8e79f92c865beb3e1cdbf08f754a2606e85349053d66d616024a813fca541a4d,
  0x864226f2839c76b1d5f7c13d98c2a5158c2abb71d9d8f0fa1f7c3f7468001603,
  0xd3e3f5b8ceebb11184803535900b6eedda606eeb369751a7cda36ca30229fb02,
  0x8c7d6b987269169031f71fd7e4c445012d3e6a3c8809f6479bd667cf311e276e,
  0xb904b5711bf19e8532f7ad6427410a62a1f77f77b9b6d71d2fc43bc90f73235a,
  0x4536634315c86728f5ab7449eb2d04020e9eae8dd6795500e9ec9a0066386e69,
  0xfd5e49fed49dc44bde89f460a950191ebb067c698a3f21ea14308c7413b91681,
  0x31f01d030b9b22d00a0f71ed2ceb5d2dc81af2c24bf5670fde19a685e8d1392e,
  0x5f84d9de284b1e4f678e31ab6a76f5661b5aeaa768539384aa38f9e49cce6e6e,
  0xb2079e5997a4ead3a71fefc02f90a7483a10fd2e6f31bda9d2084485cc016bbd,
  0xe0f84d7f525b6fed791f77289ae58f7d50a29432d42c25c1e83929b838891d79,
  0x70469690956d7918ace7ba5f41302da138c9b56ecd415544face8d998c21abeb,
  0x45c91a62249b39cda94e508295bec7667119447765ef80efa82d1e92d57067d8,
  0x1d9e0073eed0731554c3beaa47460d511ad261dd4d4a3bed9d8d202f22f21589,
  0x408262736d8aec0b847dba250258608a4345a63a1eb195e5c7ae2ee874c34da8,
  0x23d2b70439469949982390538d7e5ade9f18c8e3bbf6605afcf49b00c061e837,
  0x232fb187d271bea912efd407ffe08056d6a42e5321ec792df3d584a94f630ab2,
  0x138e1944e4b54de8681d7e48c4f08148e40a567e5cad946a6af4e8d5d26f75c7,
  0x80c151325fbfc678b7be4e40b30f29fe31cdbe1c84126e006df3c18524bd2d6c,
  0xa642267301669df261b839f87365762905ff320a0a2fc4bdc48e5a8e15d13233,
  0x0f8b10993860937a74cc2de40a2731dd9954b654bb94c34e876652e98d4bbd16,
  0xe634a58512493273260f10d44953cd998e34cb8281c41bf42e0ae2f25cbd1f75,
  0xbde6af9baf3c07e95423cab504dee70edcc3318b22dd1eb6fd85be447ac9f209,
  0x914b37ab5b8cfde6a480466a0d82432c7d76328e9a88ef5b4f52429f7a3ffc7d,
  0x55be66e9a5aa671a23882ef3e7d9d36ea95487dc71b725a5ad4b798a879143d0,
  0x3fd045894b836e44e9ca75fbe3eadc486cbbd0d8cee1b3cf14f76e7f1e77aef3,
  0xce60343dc4874b6604e1fb231e37ec1eec3f06566e428ae764efffa230add485,
  0xe38c9df024de2153d226738a0e5ba9b8c6784daca65c22a7628eb58ea0d495a7,
  0x8dfec0d4f3658a20a0bad66f2160832b164e700a21ec5a0165c36772b2086111,
  0x4401b50e09865f4238243b8225ca40a08dbb4685f5f862fbdd72980431a85d3f,
  0x8668942788c4ce8a33190ffcfad1c678c4fa41e99417094e240f4a43f387a3b6,
  0xa7288d5e09809b696984ecd5326cdd84fbe35fcf67235d811c82002536a3c5e1,
  0x8e925c3c146bacf3351ec53241ace5f73e8fc9bd8c61cad97fd772b07e1b8373,
  0xc7eb9e6ded2f993d48b0170da27c5b753b12176be126c7ba2d6af85f8593b752,
  0xca27f16f94e4ec0e628e7f8aefc6657bedc93742965940ae786a73b5fd593b97,
  0x8c21e6568bc6dc00e3d6ebc09ea9c2ce006cd311d3b3e9cc9d8ddbfb3c5a7776,
  0x525666968b3b7d007bb926b6efdc7e212a31154c9ae18d43ee0eb7e6b1a938d3,
  0xe09a4fa5c28bdcd7c839840e0a383e4f7a102d0b1bc849c949627c4100c17dd3,
  0xc19f3e295db2fc0e7481c4f16af01155ddb0d7d1383d4a1ff1699db71177340c,
  0x769e678c0a0909a2021c4dc26b1a3c9bc557adb21a50834cdc5c9293f75365f8,
  0xb64874adab6bcb85b94bd9a6c565d0d2bc35445d7528bc85b41fdc79dc76e34f,
  0xfaf250de15820f7fc610dd53eeae44601c3effa3accd088eb66905bb2653be8c,
  0x1e2038739b2c018b0e9e0e1e522fd9651287ee6e3665919b24c2124f0c1a3f3a,
  0x5fec3aa00861de1ac5dab3c137065d1e01bb03f69dcc7d1cf7ca4f4356aec9a3,
  0x4451fe6bbef39343919244c51dae1ea9a954cf2c0966ab045b15521ecf350081,
  0x8c622fa2160e8e991813f180bfec0b431c6dbfa2956d9175816a23c382c4f200,
  0x817d5c8f92e7b5ca57f5e1639016ad5760e446d6e9caa7498414ace82280b5cd,
  0xa6a1ad58cee54e69cbbcaa87df07a6707eb224739c217613460ab454b459ca9c,
  0x63b847275226605be67681258f7d00bbb307c66f1959bf2e467a41aee714e55c,
  0xfe52ebe5cfcfe6a2297b539fa3dadbd6ebd201aa2ca13563e3d7f14d15abff63,
  0xb7bef9fa5a3d10426246b5f658c08fdf8066eaa3e55a2f7da1591e05c87df8c7,
  0xded1d6caa9f8f3bda92cea7f6549b1fb86a2211478c4ec289b837efc2b5c27d7,
  0x9f30008a2eb050f18e56a76be92091b2fdc164d56e32c87dd64c9e3a611041b1,
  0x010b6a3b11860088f0abc80a8972cbbc329d5275342950eb9a045afdc8bbed24,
  0x0cd210aac11f1c1ced497f673e53db68c3ec3607f0c5787ddc60a355dfe56c25,
  0x0e56fd01da3b4f8be2c990552aac8d1e8da209bcf4aad4ffb5427fd63172463e,
  0xd6d5cdb11440e34aca3a2fcf30f59e08b11a2a3de539e3e6513ed78a4fee513b,
  0xaa35ac90680670c732ed1ef37e8cbaae49a4d88ecf4df2b689a0f101b756ae47,
  0x278e561288722630e26a5fc954bf2dcd6a65816739abee7be14307a96174e5b0,
  0xab4b2ca1a2b349981524b6155462f0ff1060bf9bfa07fb9ec69ca471645b6a18,
  0x18a9bbec3c8e1f8ee9571297a93436de427cd270ec69dfe888db7dbf10b64993,
  0xbafc7e43d265a173021a9d9e583d60ed42a803facd6b8360de1f916835389bf0,
  0xa5b67be950fbc2f0dd323a79a19e3ed1f4ae4ba7894f930ea5ef734de7db83ae,
  0xbf1e65f3cd8498884d9d5c19ebf7b916067637604e26dbe2b7288ecb11426068,
  0xc3342cf9cbbf29d406d7895dd4d9548d4ac78b4d00e9b63e203e5e19e9974620,
  0x1c0be60277434b0e004b7b388a37559f84b30c6cf8600f528bfcd33caf52cb1e,
  0x73954530d03f10bef52ad5bc7fb4c076f83f6331c8bd1eeec3887f4aa2069240,
  0x69c11ee04944dea985ac9f13960e73980e1bb0e309f4384a1676f8efab384288,
  0x36fb8fde0ec28ce853fb7175c1b79da3b5e8c39186e78aaece5464dbd9fe2aa2,
  0x6bb2a09dfcaf96962de00c8a082d6df9322b4966ae8d2ecf732411a76a1a0ee6,
  0x7412e7dd1bf1aa9397411bba4d3e0276d2e7a1a29a2477157ad60360d33d4e76,
  0xdddeafcfc72321c849fb25947ab42c1af2a5e43fef681be42c7eaf3660080ad3,
  0x9defebadbdcb0a0e7ff992f947ced3d0a4c899e64fe77360e81e1f0e97f8c1a2,
  0x844c59fbe6476fd189239954f17e36e1f69e24aaed5d5c8b8405ef2a830cc2a0,
  0xff3fafb67786e01a0c38eadf99c4cae8029da8cf29875fc419bf680009b3bdb3,
  0xca6760f345678f30a28d628294272a19e3072ebc61b19ff13b318973e97c2738,
  0xc08e1a9047c505264a16447c9ed981a719d381f28e605fd7caa9e8bdbb42996a,
  0xf173ba9d4584cd126050c69fc219a9190a0bf0aececbe611beed193da6ca4de7,
  0xb184876520ded8bd7de25eaefbd3e03688c3be39c19fb73e1f0eccac7cc0f014,
  0x9025db0758bdfb48f0667ebd7e120246598fed01c258764fa0fae334a2a00a97,
  0xe83d8086fabc460d5efc459f95a268f5dc4ac284093c247ca6ec841ad6183fe1,
  0xcc9df41d35aa75928c185f7393666110b80f0986a221c370f45c2eb9016c9a3b,
  0x92f9a594954590fa819817e5d1c28aab2b1cc504d86dba443676bdf866796811,
  0x729562a1e07b0e2605494809bd480f1537cea10dcad43ef9f68c66e825dc46b1,
  0x26f160ab96f5582045146eaff2e2a8d4dab298b4c57e117cdfc5d025c92a2268,
  0x87ebe721383873d247f86182e3f599a7634fcaec5e07b1e83ebb79625ba354e6,
  0xe08d389f75694adc996c22f55d4f859ffd0c1319ff9cedf78c31be84b6f21abc,
  0x1363e22913c6e18e7aa65b83e751c8a2c61b0f307155865a57dba569a99c7b0e,
  0x8878088eb2d1f6d0bb481b4bb187da04bcd8c2c639f005b08054cc41753905fb,
  0x0418d60d05b4e124646ee50e7749a1d209457bc543e3cc1130274aea0f7bf3c1,
  0x7a397e503f293bc42d5f7ef5ec37872460a4f5b5ccde77fb4d47ac0681e5a049,
  0x5c0d2983e72a6dd4e652d723c1dfc12b414c873d4ab4a0a150408eb34347e995,
  0x5623365453c04989c7cf33635e0fc4cddd686fc95a33dfedcf3335794c7dc344,
  0x11f6dad188028fdf1378a256e4570e9063107b8f79dc663fa5556f56fd44a0f0,
  0x0ed8161797ecee881e7d0e3f4c5fb839c84eb7a9242657cc48306807b32befde,
  0x736667c9364ce12db8f6b143c6c178cdef1e1445bc5a2f2634f08e9932273caa,
  0xe15f368b4406c1f65557c8355cbe694b633e26f155f52b7da94cfb23fd4a5d96,
  0x437ab2d74f50ca86cc3de9be70e4554825e33d824b3a492362e2e9d611bc579d,
  0x2b9158c722898e526d2cdd3fc088e9ffa79a9b73b7d2d24bc478e21cdb3b6763,
  0x0c8a36597d7461c63a94732821c941856c668376606c86a52de0ee4104c615db]

end Vectors
