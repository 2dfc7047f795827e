/-
Generated by tools/gen_tables.py from spherical_functions/Wigner_coefficients.npy: bytes 219472 to 323400 after the header.
-/
set_option autoImplicit false
namespace SF

/-- The coefficients for `2 ell = 43`: one number for each of the 44 values of `mp`, consisting of the doubles for the 44 values of `m`. -/
def wigner43 : List Nat := [
  0x3ff0000000000000401a3ad12a1da160403e0cca12e97894405bc5c37001f29a4075f4c2f298f2ee408ea8f75f86c2c740a34a331db35ab340b62ca0f5f5cc6940c784f959ebed5c40d730c2ad1c0ec240e5616c35a8381a40f2841f8360f84e40fe3c96aee3883b41075895f988d0c841111669b4ef16794117c25fd43793e2411f6e39951d05714123ce22c61cd9e74127cd8b7f2f5d63412b4dc67fb87789412de8ea513b825d412f4d3d4484e060412f4d3d4484e060412de8ea513b825d412b4dc67fb877894127cd8b7f2f5d634123ce22c61cd9e7411f6e39951d05714117c25fd43793e241111669b4ef167941075895f988d0c840fe3c96aee3883b40f2841f8360f84e40e5616c35a8381a40d730c2ad1c0ec240c784f959ebed5c40b62ca0f5f5cc6940a34a331db35ab3408ea8f75f86c2c74075f4c2f298f2ee405bc5c37001f29a403e0cca12e97894401a3ad12a1da1603ff0000000000000,
  0x401a3ad12a1da160404500000000000040677c56dd230f1a40852d24cf787dc140a052a54d7cf7b640b6358aaa6aa10540cb35e1f28ee63740de6f199482cdc340ef6229723922f740fe0f741eba923c410ae62f7455bb37411696e55e01eb3c4121de29443266ea412ab3a7ed9900e54132e46a3986928441395cdfacb2e6d641402d40a87400774143a1b99ba0d3994146afdb04e4bc844148fb95a31d98f3414a3a183bb5d572414a410a9e296d6941490f8a229be8704146ce57dae0e6204143c72bcbccc3c0414055a7ef0b17174139ac1a1a48772b41332c26b4af68d9412b2ca6822d650a41223da45ada35304117243c3451672d410baa927a1c7e5240ff0f7b6142a37340f04d7217f5e5d340dfd4209901c80340ccb184fab7e57440b7abbe8ff3f55f40a1a6690c09aa16408760c7dbce8e8c406ac943c75d7c3e4049695f5f5d63b54022548eb9151e853ff0000000000000401a3ad12a1da160,
  0x403e0cca12e9789440677c56dd230f1a4089a0000000000040a6871438406fb840c0eb4ffc6c96f740d66a2d4c1cd31940eab85c65c6a33240fd0e304631853c410d1b1745658034411b0f0da4d8f87e41277ac1600d3f77413319fbe7feb943413d3e3a81e9daee41451f46babd5e5d414cdbbef0282d3e4152ade815243dce4156f20524c817f2415ac664fb2675f1415db4449526f591415f58e0c63a9dbb415f7a3ee294c1c9415e13eb9a9de27c415b57ed7549b69f4157a3a59d016c1741536bef6faf726c414e4c5a6f2cdbc241466899d48e7730413f60d915daee6c4134c13ac22844ac4129df7f0c4754b3411e4ca504d0165f41109a3ef238cb934100f1e3981fe66940f0023e074ed9d140dbc844c4a2896740c5ea3bafbbdc0340aefe115bf08e1d409341fd67558126407467f1e2f8600b40518922301da1a640262e5acd0c3ebd3ff00000000000004022548eb9151e85403e0cca12e97894,
  0x405bc5c37001f29a40852d24cf787dc140a6871438406fb840c34c000000000040dc39038de8095140f2308bc1339751410514c70ba71d13411644c53c9667864125a6b2d03cec2e413384bb1bc0d4c9414068479338f5d04149d5b9a2e7f18b41531dd37ae31c95415aa9cebcc42aa141619061b1d5a4e94165e535be7f8e654169dc882d1faf39416cf87aaddb9cf0416ecd04a0d53e1d416f175e22ee2760416dcd2b4f2edd80416b1ec8cb1ac12e41676c0a80dceca841632eed7a3bf1e3415dc52c599aacc94155daef3fcfda27414e4ec73bca2e074143ce1523de800f41385402d3aa2c70412bfea585604a87411e0d52f1828d5e410df0a2a36b1a4140fb806ac630b6cd40e7186ac1b887ce40d1890aaa0bb2d840b7b64ad0e4cf30409bf1e87430319a407bc85afe8dd2a140561453b3496d4440294c583ada5b523ff000000000000040262e5acd0c3ebd4049695f5f5d63b5405bc5c37001f29a,
  0x4075f4c2f298f2ee40a052a54d7cf7b640c0eb4ffc6c96f740dc39038de8095140f414b00000000041092a509b2b49f8411c5518a891b339412d0c4f73d8424e413b630548f93f034147eae83501c0fa415374eb3aedecb6415d9d7b97c07ec04165287911a181cc416c74f888f3f50041720d1cc1341c1b4175a32269d4ea51417888c9bf3cb57a417a56ba565b6482417ac90500cc94114179cf0de7b8b8ed41778f6347beff5d41745e50b863e5a74170aa420b3a76144169c8212fb8de344162d40d9d0ce7784159eac6b680bc994150c5b26b63cefc41445aba5698c41241371468f96ba49a4128584e0395ba044117c21b4d94e38641054d7bcedf8ca640f164c0301f0b8240d98fd8b38527f940c0a2adc8bfa41e40a2befcc5ccd4e24081ac87593197d7405a5b5f7144630d402bedb0defaf6613ff000000000000040294c583ada5b5240518922301da1a6406ac943c75d7c3e4075f4c2f298f2ee,
  0x408ea8f75f86c2c740b6358aaa6aa10540d66a2d4c1cd31940f2308bc133975141092a509b2b49f8411ea2d8000000004130bd1764c3a6c74140a433b40eddba414e66143d16ac144159b10ea659296a4164340506499581416db0e5cabc6c804174746718644ea4417a7df05317331b4180288f2049cffb418297fce49bbd8b4184346e3d6d3f6a4184bf6cabfc08c4418423ef32ef9b7941827b68ed3dd81e418007354c791881417a4149aa7419c1417449b8ec70fca0416d8a525491200241643991523fa0e54159fbc447613d25414f3a6dbc3b997041417dc693a9854e41322e35d9d6db7741216f0bcee06920410e9fe06d80f76740f868835ff88e5540e170274815d1ce40c5f75ffdb94a1840a7d368124094a240857a9a1cf197bf405e60329137e24d402e3307cc56cf5b3ff0000000000000402bedb0defaf66140561453b3496d44407467f1e2f8600b408760c7dbce8e8c408ea8f75f86c2c7,
  0x40a34a331db35ab340cb35e1f28ee63740eab85c65c6a332410514c70ba71d13411c5518a891b3394130bd1764c3a6c74141bc980000000041511526a13b874f415e32b62ddce8614168abdb0f750e3e4172bb5aeaac0964417a8ba74d30114141819c429895247d4185ee4f931d5ce54189aecec0b9e163418c5278bd1f6cf2418d70282a983236418cdae94a6e3016418aad33b01013934187418f68dfe1df41831b594c80a151417d8f2dbbe326c641757f6714481c33416d58679d3f8ef74162c07fc6e71d5641565ecfe9a66f0b4148d153e14e60cf41397c0dfec88483412814a6f75ebd184114c84dd9bf053e410039ab0a98092340e6a17355b00e4c40cbb77fb2a56be740ad185793b2159440893f16cba28708406111d883fb1b9a403017ee1acdc9623ff0000000000000402e3307cc56cf5b405a5b5f7144630d407bc85afe8dd2a1409341fd6755812640a1a6690c09aa1640a34a331db35ab3,
  0x40b62ca0f5f5cc6940de6f199482cdc340fd0e304631853c411644c53c966786412d0c4f73d8424e4140a433b40eddba41511526a13b874f415fd80800000000416b3543a2741c604175764645396883417f6d28d4eb49f141857165d1a314fa418b5b3dca8a9f2d41905a468eaa617641925a31d67d53b541935bbf0a3f1633419334e08679cd724191ee00daf409d6418f7e92be9789c4418a02da2664841841842edf257bbac8417d6339c3a3769541740978d6d82df14169872c74374f68415e4b80450008244150ae295933fd114140f68ad399dbe4412fabb35d89c633411aeef388b0d0f94104a966db6c939040ec3ab2d903492f40d0dfd9996de86640b138edae53463f408ced144f7c69b74062d32968a245d64030f876ccdf6cd93ff0000000000000403017ee1acdc962405e60329137e24d4081ac87593197d7409bf1e87430319a40aefe115bf08e1d40b7abbe8ff3f55f40b62ca0f5f5cc69,
  0x40c784f959ebed5c40ef6229723922f7410d1b17456580344125a6b2d03cec2e413b630548f93f03414e66143d16ac14415e32b62ddce861416b3543a2741c604176720cc0000000418112ab29203e74418812da375b4465418f96a5866ca4764193580a1a54b4c94196299bed8ced084197ca9026141b9f4197f46c512ebb6a4196a2985d76b4c1419412e6fb5918004190b3d33cf0c6cb418a0e6713447c814183075f921a8ede4179f9a7a3392410417087993952e86741638e2786f7e0bc41556bf7a69b778f41459fad4def86534133fdbc3412e5e04120cbc1f0c2ef7e4109649f57a59ccb40f10b88aa5d5e4640d3f60c2fadba0840b3e2fdf6a588ae40903cc710ab26d44064742e8b6df2e94031bf8c9d2ed1a13ff00000000000004030f876ccdf6cd9406111d883fb1b9a40857a9a1cf197bf40a2befcc5ccd4e240b7b64ad0e4cf3040c5ea3bafbbdc0340ccb184fab7e57440c784f959ebed5c,
  0x40d730c2ad1c0ec240fe0f741eba923c411b0f0da4d8f87e413384bb1bc0d4c94147eae83501c0fa4159b10ea659296a4168abdb0f750e3e4175764645396883418112ab29203e74418902bdc00000004190f477aa6e5bcf41955b922ddfc4ea4199115d1e2c4a6a419b78c6c6a71d4b419c26739069101f419afe753e4c3bb441983b47d394d4a441945bcc533399cc418fff201d96eefc41877d5a916aab334180150fd80ca74541747d51874b35cf4168370342cd3f97415a718e6a538a70414a8db44b5730d541385e00528574be41244654ae3edec2410e4871d2408a4640f407c2979849fb40d70c9320b42f7c40b67e5f0d5a8b624091ed84bbf976574065f4fd3e9f23654032706821902e9a3ff00000000000004031bf8c9d2ed1a14062d32968a245d640893f16cba2870840a7d368124094a240c0a2adc8bfa41e40d1890aaa0bb2d840dbc844c4a2896740dfd4209901c80340d730c2ad1c0ec2,
  0x40e5616c35a8381a410ae62f7455bb3741277ac1600d3f77414068479338f5d0415374eb3aedecb641643405064995814172bb5aeaac0964417f6d28d4eb49f1418812da375b44654190f477aa6e5bcf4196117a40000000419aa3f9b58f7067419de8ab4a1bdf31419f4985e010fad9419e887e78d7baf7419bd0abff5c6cb04197a78fedff3fb94192c50a5c377e59418bc39e4df41c1341831bcc67bfa4a041786bd016a0a93d416ce42693c1fff3415f84872cd3a2da414f8ce0501d79a6413ccd253f9eff8d4127c974c3aa5c3e411197c369c43db840f6fe18420f367440da1234408b1e4940b90012665fa0fe409384aa1bd93c79406755a359b335aa40330d747fbcb4b53ff00000000000004032706821902e9a4064742e8b6df2e9408ced144f7c69b740ad185793b2159440c5f75ffdb94a1840d98fd8b38527f940e7186ac1b887ce40f0023e074ed9d140f04d7217f5e5d340e5616c35a8381a,
  0x40f2841f8360f84e411696e55e01eb3c413319fbe7feb9434149d5b9a2e7f18b415d9d7b97c07ec0416db0e5cabc6c80417a8ba74d30114141857165d1a314fa418f96a5866ca47641955b922ddfc4ea419aa3f9b58f7067419ec3078000000041a07ba4fec9750141a06be8c7f7cdf3419e72ee6647d3c8419a474a4db1241341951b3021cf3125418f86600072b1ee4185dbcc5a1aa4f1417c15144d8241f34170a9c187e5f1354162325de87dc7fb4152325de87dc7fb41408f42b6c1885b412b35d0e3bf67a74113f9d120ec8dd440f9dad0c8f318aa40dcf68e7660f75340bb5e18eb90f8fc4094feaa9fd3f7c64068962a37fcf0e24033988e1409212e3ff000000000000040330d747fbcb4b54065f4fd3e9f236540903cc710ab26d440b138edae53463f40cbb77fb2a56be740e170274815d1ce40f164c0301f0b8240fb806ac630b6cd4100f1e3981fe66940ff0f7b6142a37340f2841f8360f84e,
  0x40fe3c96aee3883b4121de29443266ea413d3e3a81e9daee41531dd37ae31c954165287911a181cc4174746718644ea441819c429895247d418b5b3dca8a9f2d4193580a1a54b4c94199115d1e2c4a6a419de8ab4a1bdf3141a07ba4fec9750141a0d2a81a000000419fd8225cf93e00419bf819ff4c588a4196cc1c2e27fc3a41913baf3e159ea541882198106084a6417f3ba9a97e8d404172a1429ab6850741646876775f60f041546dde4980bdf24142926cfd00acad412e6c04de77eb24411637909f0fb9ac40fc8af97b48ef1f40dfaa5c4472efd040bd8f73355aaf44409658745be84aee4069b698612eae784034132a04b5c9683ff00000000000004033988e1409212e406755a359b335aa4091ed84bbf9765740b3e2fdf6a588ae40d0dfd9996de86640e6a17355b00e4c40f868835ff88e5541054d7bcedf8ca6410df0a2a36b1a4141109a3ef238cb93410baa927a1c7e5240fe3c96aee3883b,
  0x41075895f988d0c8412ab3a7ed9900e541451f46babd5e5d415aa9cebcc42aa1416c74f888f3f500417a7df05317331b4185ee4f931d5ce541905a468eaa61764196299bed8ced08419b78c6c6a71d4b419f4985e010fad941a06be8c7f7cdf3419fd8225cf93e00419c8d8fa80000004197af641d982d1c41922b7a44639c3b4189c0d98d00f7fe4180d430b53a81f4417439cce0980d90416645c5401ab3ae41565d7a8557c45241445a5dadf219274130a706d4232bda41183f2e882d6ce840fefce5e9e25e2a40e10fd5ffcc4e4540bf8c21a9f6683040978f627418ae62406ab6f2816d867740347e7054af09893ff00000000000004034132a04b5c9684068962a37fcf0e2409384aa1bd93c7940b67e5f0d5a8b6240d3f60c2fadba0840ec3ab2d903492f410039ab0a980923410e9fe06d80f7674117c21b4d94e386411e0d52f1828d5e411e4ca504d0165f4117243c3451672d41075895f988d0c8,
  0x41111669b4ef16794132e46a39869284414cdbbef0282d3e41619061b1d5a4e941720d1cc1341c1b4180288f2049cffb4189aecec0b9e16341925a31d67d53b54197ca9026141b9f419c26739069101f419e887e78d7baf7419e72ee6647d3c8419bf819ff4c588a4197af641d982d1c41927dcfa0000000418a9910e58b67ab418197c619738ea1417559ac122f38e54167af9e6bb4aa684157e8cb48efb1014145d37eb70cd91b4131e0511cdff6cc411a0075fb744fb44100904ff935429c40e225078d5bd84940c0a69247bb1b954098a132a6ac72fd406b973c00c28ed24034db4da6bac4aa3ff000000000000040347e7054af09894069b698612eae784094feaa9fd3f7c640b90012665fa0fe40d70c9320b42f7c40f10b88aa5d5e464104a966db6c93904114c84dd9bf053e41216f0bcee069204128584e0395ba04412bfea585604a874129df7f0c4754b341223da45ada353041111669b4ef1679,
  0x4117c25fd43793e241395cdfacb2e6d64152ade815243dce4165e535be7f8e654175a32269d4ea51418297fce49bbd8b418c5278bd1f6cf241935bbf0a3f16334197f46c512ebb6a419afe753e4c3bb4419bd0abff5c6cb0419a474a4db124134196cc1c2e27fc3a41922b7a44639c3b418a9910e58b67ab4181da93800000004175ee6cd31745a34168916a03840d524158fc059e627d7b4146ed646c36db634132d632a483cdf5411b6d5cf7538ee941017423e3352c6640e30f60c6d856f940c1663e0b4b059b40998bfd2e808c93406c577762e992e840352a7fa9d2f8e93ff00000000000004034db4da6bac4aa406ab6f2816d8677409658745be84aee40bb5e18eb90f8fc40da1234408b1e4940f407c2979849fb4109649f57a59ccb411aeef388b0d0f9412814a6f75ebd1841322e35d9d6db7741371468f96ba49a41385402d3aa2c704134c13ac22844ac412b2ca6822d650a4117c25fd43793e2,
  0x411f6e39951d057141402d40a87400774156f20524c817f24169dc882d1faf39417888c9bf3cb57a4184346e3d6d3f6a418d70282a983236419334e08679cd724196a2985d76b4c141983b47d394d4a44197a78fedff3fb941951b3021cf312541913baf3e159ea54189c0d98d00f7fe418197c619738ea14175ee6cd31745a34168de28e00000004159893b43c55cdf41479bac339951e041337f72eed4bee7411c7a7a536b0acb41022431f7eacf0c40e3ca650e7484c840c2029430b505d0409a4e2e74791471406cf7a685ac7dc840356c9df5e1f2da3ff000000000000040352a7fa9d2f8e9406b973c00c28ed240978f627418ae6240bd8f73355aaf4440dcf68e7660f75340f6fe18420f3674410e4871d2408a464120cbc1f0c2ef7e412fabb35d89c63341397c0dfec8848341417dc693a9854e41445aba5698c4124143ce1523de800f413f60d915daee6c41332c26b4af68d9411f6e39951d0571,
  0x4123ce22c61cd9e74143a1b99ba0d399415ac664fb2675f1416cf87aaddb9cf0417a56ba565b64824184bf6cabfc08c4418cdae94a6e30164191ee00daf409d6419412e6fb59180041945bcc533399cc4192c50a5c377e59418f86600072b1ee41882198106084a64180d430b53a81f4417559ac122f38e54168916a03840d524159893b43c55cdf4147d6a3000000004133d5b35fa36000411d1f6369f5fce841029c10aa01910f40e4528a0a91e0f440c27994c3ca6f69409ae6823049f641406d77caca54fbdb4035a220734903763ff000000000000040356c9df5e1f2da406c577762e992e84098a132a6ac72fd40bf8c21a9f6683040dfaa5c4472efd040f9dad0c8f318aa411197c369c43db841244654ae3edec24133fdbc3412e5e04140f68ad399dbe44148d153e14e60cf414f3a6dbc3b99704150c5b26b63cefc414e4ec73bca2e0741466899d48e77304139ac1a1a48772b4123ce22c61cd9e7,
  0x4127cd8b7f2f5d634146afdb04e4bc84415db4449526f591416ecd04a0d53e1d417ac90500cc9411418423ef32ef9b79418aad33b0101393418f7e92be9789c44190b3d33cf0c6cb418fff201d96eefc418bc39e4df41c134185dbcc5a1aa4f1417f3ba9a97e8d40417439cce0980d904167af9e6bb4aa684158fc059e627d7b41479bac339951e04133d5b35fa36000411d56f0000000004102d8c19ac9cc2740e4a541749325d540c2c9bfcc7a5d1b409b53ffb50f1310406dd7e5318b6a954035cb64017d61763ff00000000000004035a22073490376406cf7a685ac7dc840998bfd2e808c9340c0a69247bb1b9540e10fd5ffcc4e4540fc8af97b48ef1f4113f9d120ec8dd44127c974c3aa5c3e41385e00528574be41459fad4def86534150ae295933fd1141565ecfe9a66f0b4159fbc447613d254159eac6b680bc994155daef3fcfda27414e4c5a6f2cdbc2414055a7ef0b17174127cd8b7f2f5d63,
  0x412b4dc67fb877894148fb95a31d98f3415f58e0c63a9dbb416f175e22ee27604179cf0de7b8b8ed41827b68ed3dd81e4187418f68dfe1df418a02da26648418418a0e6713447c8141877d5a916aab3341831bcc67bfa4a0417c15144d8241f34172a1429ab68507416645c5401ab3ae4157e8cb48efb1014146ed646c36db6341337f72eed4bee7411d1f6369f5fce84102d8c19ac9cc2740e4c1000000000040c2f2154fa8016a409b95f73a366e3f406e17f66e0cd55c4035e8add236a58e3ff00000000000004035cb64017d6176406d77caca54fbdb409a4e2e7479147140c1663e0b4b059b40e225078d5bd84940fefce5e9e25e2a411637909f0fb9ac412b35d0e3bf67a7413ccd253f9eff8d414a8db44b5730d541556bf7a69b778f415e4b80450008244162c07fc6e71d5641643991523fa0e54162d40d9d0ce778415dc52c599aacc941536bef6faf726c4143c72bcbccc3c0412b4dc67fb87789,
  0x412de8ea513b825d414a3a183bb5d572415f7a3ee294c1c9416dcd2b4f2edd8041778f6347beff5d418007354c79188141831b594c80a15141842edf257bbac84183075f921a8ede4180150fd80ca74541786bd016a0a93d4170a9c187e5f13541646876775f60f041565d7a8557c4524145d37eb70cd91b4132d632a483cdf5411c7a7a536b0acb41029c10aa01910f40e4a541749325d540c2f2154fa8016a409bac0000000000406e37fef0e8f30b4035fa2dc67adf4d3ff00000000000004035e8add236a58e406dd7e5318b6a95409ae6823049f64140c2029430b505d040e30f60c6d856f94100904ff935429c41183f2e882d6ce8412e6c04de77eb2441408f42b6c1885b414f8ce0501d79a6415a718e6a538a7041638e2786f7e0bc4169872c74374f68416d58679d3f8ef7416d8a52549120024169c8212fb8de3441632eed7a3bf1e34157a3a59d016c174146ce57dae0e620412de8ea513b825d,
  0x412f4d3d4484e060414a410a9e296d69415e13eb9a9de27c416b1ec8cb1ac12e41745e50b863e5a7417a4149aa7419c1417d8f2dbbe326c6417d6339c3a376954179f9a7a339241041747d51874b35cf416ce42693c1fff34162325de87dc7fb41546dde4980bdf241445a5dadf219274131e0511cdff6cc411b6d5cf7538ee941022431f7eacf0c40e4528a0a91e0f440c2c9bfcc7a5d1b409b95f73a366e3f406e37fef0e8f30b40360000000000003ff00000000000004035fa2dc67adf4d406e17f66e0cd55c409b53ffb50f131040c27994c3ca6f6940e3ca650e7484c841017423e3352c66411a0075fb744fb44130a706d4232bda4142926cfd00acad4152325de87dc7fb415f84872cd3a2da4168370342cd3f97417087993952e86741740978d6d82df141757f6714481c33417449b8ec70fca04170aa420b3a761441676c0a80dceca8415b57ed7549b69f41490f8a229be870412f4d3d4484e060,
  0x412f4d3d4484e06041490f8a229be870415b57ed7549b69f41676c0a80dceca84170aa420b3a7614417449b8ec70fca041757f6714481c3341740978d6d82df1417087993952e8674168370342cd3f97415f84872cd3a2da4152325de87dc7fb4142926cfd00acad4130a706d4232bda411a0075fb744fb441017423e3352c6640e3ca650e7484c840c27994c3ca6f69409b53ffb50f1310406e17f66e0cd55c4035fa2dc67adf4d3ff00000000000004036000000000000406e37fef0e8f30b409b95f73a366e3f40c2c9bfcc7a5d1b40e4528a0a91e0f441022431f7eacf0c411b6d5cf7538ee94131e0511cdff6cc41445a5dadf2192741546dde4980bdf24162325de87dc7fb416ce42693c1fff341747d51874b35cf4179f9a7a3392410417d6339c3a37695417d8f2dbbe326c6417a4149aa7419c141745e50b863e5a7416b1ec8cb1ac12e415e13eb9a9de27c414a410a9e296d69412f4d3d4484e060,
  0x412de8ea513b825d4146ce57dae0e6204157a3a59d016c1741632eed7a3bf1e34169c8212fb8de34416d8a5254912002416d58679d3f8ef74169872c74374f6841638e2786f7e0bc415a718e6a538a70414f8ce0501d79a641408f42b6c1885b412e6c04de77eb2441183f2e882d6ce84100904ff935429c40e30f60c6d856f940c2029430b505d0409ae6823049f641406dd7e5318b6a954035e8add236a58e3ff00000000000004035fa2dc67adf4d406e37fef0e8f30b409bac000000000040c2f2154fa8016a40e4a541749325d541029c10aa01910f411c7a7a536b0acb4132d632a483cdf54145d37eb70cd91b41565d7a8557c45241646876775f60f04170a9c187e5f13541786bd016a0a93d4180150fd80ca7454183075f921a8ede41842edf257bbac841831b594c80a151418007354c79188141778f6347beff5d416dcd2b4f2edd80415f7a3ee294c1c9414a3a183bb5d572412de8ea513b825d,
  0x412b4dc67fb877894143c72bcbccc3c041536bef6faf726c415dc52c599aacc94162d40d9d0ce77841643991523fa0e54162c07fc6e71d56415e4b804500082441556bf7a69b778f414a8db44b5730d5413ccd253f9eff8d412b35d0e3bf67a7411637909f0fb9ac40fefce5e9e25e2a40e225078d5bd84940c1663e0b4b059b409a4e2e74791471406d77caca54fbdb4035cb64017d61763ff00000000000004035e8add236a58e406e17f66e0cd55c409b95f73a366e3f40c2f2154fa8016a40e4c100000000004102d8c19ac9cc27411d1f6369f5fce841337f72eed4bee74146ed646c36db634157e8cb48efb101416645c5401ab3ae4172a1429ab68507417c15144d8241f341831bcc67bfa4a041877d5a916aab33418a0e6713447c81418a02da266484184187418f68dfe1df41827b68ed3dd81e4179cf0de7b8b8ed416f175e22ee2760415f58e0c63a9dbb4148fb95a31d98f3412b4dc67fb87789,
  0x4127cd8b7f2f5d63414055a7ef0b1717414e4c5a6f2cdbc24155daef3fcfda274159eac6b680bc994159fbc447613d2541565ecfe9a66f0b4150ae295933fd1141459fad4def865341385e00528574be4127c974c3aa5c3e4113f9d120ec8dd440fc8af97b48ef1f40e10fd5ffcc4e4540c0a69247bb1b9540998bfd2e808c93406cf7a685ac7dc84035a220734903763ff00000000000004035cb64017d6176406dd7e5318b6a95409b53ffb50f131040c2c9bfcc7a5d1b40e4a541749325d54102d8c19ac9cc27411d56f0000000004133d5b35fa3600041479bac339951e04158fc059e627d7b4167af9e6bb4aa68417439cce0980d90417f3ba9a97e8d404185dbcc5a1aa4f1418bc39e4df41c13418fff201d96eefc4190b3d33cf0c6cb418f7e92be9789c4418aad33b0101393418423ef32ef9b79417ac90500cc9411416ecd04a0d53e1d415db4449526f5914146afdb04e4bc844127cd8b7f2f5d63,
  0x4123ce22c61cd9e74139ac1a1a48772b41466899d48e7730414e4ec73bca2e074150c5b26b63cefc414f3a6dbc3b99704148d153e14e60cf4140f68ad399dbe44133fdbc3412e5e041244654ae3edec2411197c369c43db840f9dad0c8f318aa40dfaa5c4472efd040bf8c21a9f668304098a132a6ac72fd406c577762e992e840356c9df5e1f2da3ff00000000000004035a22073490376406d77caca54fbdb409ae6823049f64140c27994c3ca6f6940e4528a0a91e0f441029c10aa01910f411d1f6369f5fce84133d5b35fa360004147d6a3000000004159893b43c55cdf4168916a03840d52417559ac122f38e54180d430b53a81f441882198106084a6418f86600072b1ee4192c50a5c377e5941945bcc533399cc419412e6fb5918004191ee00daf409d6418cdae94a6e30164184bf6cabfc08c4417a56ba565b6482416cf87aaddb9cf0415ac664fb2675f14143a1b99ba0d3994123ce22c61cd9e7,
  0x411f6e39951d057141332c26b4af68d9413f60d915daee6c4143ce1523de800f41445aba5698c41241417dc693a9854e41397c0dfec88483412fabb35d89c6334120cbc1f0c2ef7e410e4871d2408a4640f6fe18420f367440dcf68e7660f75340bd8f73355aaf4440978f627418ae62406b973c00c28ed240352a7fa9d2f8e93ff000000000000040356c9df5e1f2da406cf7a685ac7dc8409a4e2e7479147140c2029430b505d040e3ca650e7484c841022431f7eacf0c411c7a7a536b0acb41337f72eed4bee741479bac339951e04159893b43c55cdf4168de28e00000004175ee6cd31745a3418197c619738ea14189c0d98d00f7fe41913baf3e159ea541951b3021cf31254197a78fedff3fb941983b47d394d4a44196a2985d76b4c1419334e08679cd72418d70282a9832364184346e3d6d3f6a417888c9bf3cb57a4169dc882d1faf394156f20524c817f241402d40a8740077411f6e39951d0571,
  0x4117c25fd43793e2412b2ca6822d650a4134c13ac22844ac41385402d3aa2c7041371468f96ba49a41322e35d9d6db77412814a6f75ebd18411aeef388b0d0f94109649f57a59ccb40f407c2979849fb40da1234408b1e4940bb5e18eb90f8fc409658745be84aee406ab6f2816d86774034db4da6bac4aa3ff000000000000040352a7fa9d2f8e9406c577762e992e840998bfd2e808c9340c1663e0b4b059b40e30f60c6d856f941017423e3352c66411b6d5cf7538ee94132d632a483cdf54146ed646c36db634158fc059e627d7b4168916a03840d524175ee6cd31745a34181da9380000000418a9910e58b67ab41922b7a44639c3b4196cc1c2e27fc3a419a474a4db12413419bd0abff5c6cb0419afe753e4c3bb44197f46c512ebb6a41935bbf0a3f1633418c5278bd1f6cf2418297fce49bbd8b4175a32269d4ea514165e535be7f8e654152ade815243dce41395cdfacb2e6d64117c25fd43793e2,
  0x41111669b4ef167941223da45ada35304129df7f0c4754b3412bfea585604a874128584e0395ba0441216f0bcee069204114c84dd9bf053e4104a966db6c939040f10b88aa5d5e4640d70c9320b42f7c40b90012665fa0fe4094feaa9fd3f7c64069b698612eae7840347e7054af09893ff00000000000004034db4da6bac4aa406b973c00c28ed24098a132a6ac72fd40c0a69247bb1b9540e225078d5bd8494100904ff935429c411a0075fb744fb44131e0511cdff6cc4145d37eb70cd91b4157e8cb48efb1014167af9e6bb4aa68417559ac122f38e5418197c619738ea1418a9910e58b67ab41927dcfa00000004197af641d982d1c419bf819ff4c588a419e72ee6647d3c8419e887e78d7baf7419c26739069101f4197ca9026141b9f41925a31d67d53b54189aecec0b9e1634180288f2049cffb41720d1cc1341c1b41619061b1d5a4e9414cdbbef0282d3e4132e46a3986928441111669b4ef1679,
  0x41075895f988d0c84117243c3451672d411e4ca504d0165f411e0d52f1828d5e4117c21b4d94e386410e9fe06d80f767410039ab0a98092340ec3ab2d903492f40d3f60c2fadba0840b67e5f0d5a8b62409384aa1bd93c794068962a37fcf0e24034132a04b5c9683ff000000000000040347e7054af0989406ab6f2816d867740978f627418ae6240bf8c21a9f6683040e10fd5ffcc4e4540fefce5e9e25e2a41183f2e882d6ce84130a706d4232bda41445a5dadf2192741565d7a8557c452416645c5401ab3ae417439cce0980d904180d430b53a81f44189c0d98d00f7fe41922b7a44639c3b4197af641d982d1c419c8d8fa8000000419fd8225cf93e0041a06be8c7f7cdf3419f4985e010fad9419b78c6c6a71d4b4196299bed8ced0841905a468eaa61764185ee4f931d5ce5417a7df05317331b416c74f888f3f500415aa9cebcc42aa141451f46babd5e5d412ab3a7ed9900e541075895f988d0c8,
  0x40fe3c96aee3883b410baa927a1c7e5241109a3ef238cb93410df0a2a36b1a4141054d7bcedf8ca640f868835ff88e5540e6a17355b00e4c40d0dfd9996de86640b3e2fdf6a588ae4091ed84bbf97657406755a359b335aa4033988e1409212e3ff00000000000004034132a04b5c9684069b698612eae78409658745be84aee40bd8f73355aaf4440dfaa5c4472efd040fc8af97b48ef1f411637909f0fb9ac412e6c04de77eb244142926cfd00acad41546dde4980bdf241646876775f60f04172a1429ab68507417f3ba9a97e8d4041882198106084a641913baf3e159ea54196cc1c2e27fc3a419bf819ff4c588a419fd8225cf93e0041a0d2a81a00000041a07ba4fec97501419de8ab4a1bdf314199115d1e2c4a6a4193580a1a54b4c9418b5b3dca8a9f2d41819c429895247d4174746718644ea44165287911a181cc41531dd37ae31c95413d3e3a81e9daee4121de29443266ea40fe3c96aee3883b,
  0x40f2841f8360f84e40ff0f7b6142a3734100f1e3981fe66940fb806ac630b6cd40f164c0301f0b8240e170274815d1ce40cbb77fb2a56be740b138edae53463f40903cc710ab26d44065f4fd3e9f236540330d747fbcb4b53ff00000000000004033988e1409212e4068962a37fcf0e24094feaa9fd3f7c640bb5e18eb90f8fc40dcf68e7660f75340f9dad0c8f318aa4113f9d120ec8dd4412b35d0e3bf67a741408f42b6c1885b4152325de87dc7fb4162325de87dc7fb4170a9c187e5f135417c15144d8241f34185dbcc5a1aa4f1418f86600072b1ee41951b3021cf3125419a474a4db12413419e72ee6647d3c841a06be8c7f7cdf341a07ba4fec97501419ec30780000000419aa3f9b58f706741955b922ddfc4ea418f96a5866ca47641857165d1a314fa417a8ba74d301141416db0e5cabc6c80415d9d7b97c07ec04149d5b9a2e7f18b413319fbe7feb943411696e55e01eb3c40f2841f8360f84e,
  0x40e5616c35a8381a40f04d7217f5e5d340f0023e074ed9d140e7186ac1b887ce40d98fd8b38527f940c5f75ffdb94a1840ad185793b21594408ced144f7c69b74064742e8b6df2e94032706821902e9a3ff000000000000040330d747fbcb4b5406755a359b335aa409384aa1bd93c7940b90012665fa0fe40da1234408b1e4940f6fe18420f3674411197c369c43db84127c974c3aa5c3e413ccd253f9eff8d414f8ce0501d79a6415f84872cd3a2da416ce42693c1fff341786bd016a0a93d41831bcc67bfa4a0418bc39e4df41c134192c50a5c377e594197a78fedff3fb9419bd0abff5c6cb0419e887e78d7baf7419f4985e010fad9419de8ab4a1bdf31419aa3f9b58f70674196117a400000004190f477aa6e5bcf418812da375b4465417f6d28d4eb49f14172bb5aeaac09644164340506499581415374eb3aedecb6414068479338f5d041277ac1600d3f77410ae62f7455bb3740e5616c35a8381a,
  0x40d730c2ad1c0ec240dfd4209901c80340dbc844c4a2896740d1890aaa0bb2d840c0a2adc8bfa41e40a7d368124094a240893f16cba287084062d32968a245d64031bf8c9d2ed1a13ff00000000000004032706821902e9a4065f4fd3e9f23654091ed84bbf9765740b67e5f0d5a8b6240d70c9320b42f7c40f407c2979849fb410e4871d2408a4641244654ae3edec241385e00528574be414a8db44b5730d5415a718e6a538a704168370342cd3f9741747d51874b35cf4180150fd80ca74541877d5a916aab33418fff201d96eefc41945bcc533399cc41983b47d394d4a4419afe753e4c3bb4419c26739069101f419b78c6c6a71d4b4199115d1e2c4a6a41955b922ddfc4ea4190f477aa6e5bcf418902bdc0000000418112ab29203e7441757646453968834168abdb0f750e3e4159b10ea659296a4147eae83501c0fa413384bb1bc0d4c9411b0f0da4d8f87e40fe0f741eba923c40d730c2ad1c0ec2,
  0x40c784f959ebed5c40ccb184fab7e57440c5ea3bafbbdc0340b7b64ad0e4cf3040a2befcc5ccd4e240857a9a1cf197bf406111d883fb1b9a4030f876ccdf6cd93ff00000000000004031bf8c9d2ed1a14064742e8b6df2e940903cc710ab26d440b3e2fdf6a588ae40d3f60c2fadba0840f10b88aa5d5e464109649f57a59ccb4120cbc1f0c2ef7e4133fdbc3412e5e041459fad4def865341556bf7a69b778f41638e2786f7e0bc417087993952e8674179f9a7a33924104183075f921a8ede418a0e6713447c814190b3d33cf0c6cb419412e6fb5918004196a2985d76b4c14197f46c512ebb6a4197ca9026141b9f4196299bed8ced084193580a1a54b4c9418f96a5866ca476418812da375b4465418112ab29203e744176720cc0000000416b3543a2741c60415e32b62ddce861414e66143d16ac14413b630548f93f034125a6b2d03cec2e410d1b174565803440ef6229723922f740c784f959ebed5c,
  0x40b62ca0f5f5cc6940b7abbe8ff3f55f40aefe115bf08e1d409bf1e87430319a4081ac87593197d7405e60329137e24d403017ee1acdc9623ff00000000000004030f876ccdf6cd94062d32968a245d6408ced144f7c69b740b138edae53463f40d0dfd9996de86640ec3ab2d903492f4104a966db6c9390411aeef388b0d0f9412fabb35d89c6334140f68ad399dbe44150ae295933fd11415e4b80450008244169872c74374f6841740978d6d82df1417d6339c3a3769541842edf257bbac8418a02da26648418418f7e92be9789c44191ee00daf409d6419334e08679cd7241935bbf0a3f163341925a31d67d53b541905a468eaa6176418b5b3dca8a9f2d41857165d1a314fa417f6d28d4eb49f14175764645396883416b3543a2741c60415fd8080000000041511526a13b874f4140a433b40eddba412d0c4f73d8424e411644c53c96678640fd0e304631853c40de6f199482cdc340b62ca0f5f5cc69,
  0x40a34a331db35ab340a1a6690c09aa16409341fd67558126407bc85afe8dd2a1405a5b5f7144630d402e3307cc56cf5b3ff0000000000000403017ee1acdc962406111d883fb1b9a40893f16cba2870840ad185793b2159440cbb77fb2a56be740e6a17355b00e4c410039ab0a9809234114c84dd9bf053e412814a6f75ebd1841397c0dfec884834148d153e14e60cf41565ecfe9a66f0b4162c07fc6e71d56416d58679d3f8ef741757f6714481c33417d8f2dbbe326c641831b594c80a1514187418f68dfe1df418aad33b0101393418cdae94a6e3016418d70282a983236418c5278bd1f6cf24189aecec0b9e1634185ee4f931d5ce541819c429895247d417a8ba74d3011414172bb5aeaac09644168abdb0f750e3e415e32b62ddce86141511526a13b874f4141bc98000000004130bd1764c3a6c7411c5518a891b339410514c70ba71d1340eab85c65c6a33240cb35e1f28ee63740a34a331db35ab3,
  0x408ea8f75f86c2c7408760c7dbce8e8c407467f1e2f8600b40561453b3496d44402bedb0defaf6613ff0000000000000402e3307cc56cf5b405e60329137e24d40857a9a1cf197bf40a7d368124094a240c5f75ffdb94a1840e170274815d1ce40f868835ff88e55410e9fe06d80f76741216f0bcee0692041322e35d9d6db7741417dc693a9854e414f3a6dbc3b99704159fbc447613d2541643991523fa0e5416d8a5254912002417449b8ec70fca0417a4149aa7419c1418007354c79188141827b68ed3dd81e418423ef32ef9b794184bf6cabfc08c44184346e3d6d3f6a418297fce49bbd8b4180288f2049cffb417a7df05317331b4174746718644ea4416db0e5cabc6c8041643405064995814159b10ea659296a414e66143d16ac144140a433b40eddba4130bd1764c3a6c7411ea2d80000000041092a509b2b49f840f2308bc133975140d66a2d4c1cd31940b6358aaa6aa105408ea8f75f86c2c7,
  0x4075f4c2f298f2ee406ac943c75d7c3e40518922301da1a640294c583ada5b523ff0000000000000402bedb0defaf661405a5b5f7144630d4081ac87593197d740a2befcc5ccd4e240c0a2adc8bfa41e40d98fd8b38527f940f164c0301f0b8241054d7bcedf8ca64117c21b4d94e3864128584e0395ba0441371468f96ba49a41445aba5698c4124150c5b26b63cefc4159eac6b680bc994162d40d9d0ce7784169c8212fb8de344170aa420b3a761441745e50b863e5a741778f6347beff5d4179cf0de7b8b8ed417ac90500cc9411417a56ba565b6482417888c9bf3cb57a4175a32269d4ea5141720d1cc1341c1b416c74f888f3f5004165287911a181cc415d9d7b97c07ec0415374eb3aedecb64147eae83501c0fa413b630548f93f03412d0c4f73d8424e411c5518a891b33941092a509b2b49f840f414b00000000040dc39038de8095140c0eb4ffc6c96f740a052a54d7cf7b64075f4c2f298f2ee,
  0x405bc5c37001f29a4049695f5f5d63b540262e5acd0c3ebd3ff000000000000040294c583ada5b5240561453b3496d44407bc85afe8dd2a1409bf1e87430319a40b7b64ad0e4cf3040d1890aaa0bb2d840e7186ac1b887ce40fb806ac630b6cd410df0a2a36b1a41411e0d52f1828d5e412bfea585604a8741385402d3aa2c704143ce1523de800f414e4ec73bca2e074155daef3fcfda27415dc52c599aacc941632eed7a3bf1e341676c0a80dceca8416b1ec8cb1ac12e416dcd2b4f2edd80416f175e22ee2760416ecd04a0d53e1d416cf87aaddb9cf04169dc882d1faf394165e535be7f8e6541619061b1d5a4e9415aa9cebcc42aa141531dd37ae31c954149d5b9a2e7f18b414068479338f5d0413384bb1bc0d4c94125a6b2d03cec2e411644c53c966786410514c70ba71d1340f2308bc133975140dc39038de8095140c34c000000000040a6871438406fb840852d24cf787dc1405bc5c37001f29a,
  0x403e0cca12e978944022548eb9151e853ff000000000000040262e5acd0c3ebd40518922301da1a6407467f1e2f8600b409341fd6755812640aefe115bf08e1d40c5ea3bafbbdc0340dbc844c4a2896740f0023e074ed9d14100f1e3981fe66941109a3ef238cb93411e4ca504d0165f4129df7f0c4754b34134c13ac22844ac413f60d915daee6c41466899d48e7730414e4c5a6f2cdbc241536bef6faf726c4157a3a59d016c17415b57ed7549b69f415e13eb9a9de27c415f7a3ee294c1c9415f58e0c63a9dbb415db4449526f591415ac664fb2675f14156f20524c817f24152ade815243dce414cdbbef0282d3e41451f46babd5e5d413d3e3a81e9daee413319fbe7feb94341277ac1600d3f77411b0f0da4d8f87e410d1b174565803440fd0e304631853c40eab85c65c6a33240d66a2d4c1cd31940c0eb4ffc6c96f740a6871438406fb84089a0000000000040677c56dd230f1a403e0cca12e97894,
  0x401a3ad12a1da1603ff00000000000004022548eb9151e854049695f5f5d63b5406ac943c75d7c3e408760c7dbce8e8c40a1a6690c09aa1640b7abbe8ff3f55f40ccb184fab7e57440dfd4209901c80340f04d7217f5e5d340ff0f7b6142a373410baa927a1c7e524117243c3451672d41223da45ada3530412b2ca6822d650a41332c26b4af68d94139ac1a1a48772b414055a7ef0b17174143c72bcbccc3c04146ce57dae0e62041490f8a229be870414a410a9e296d69414a3a183bb5d5724148fb95a31d98f34146afdb04e4bc844143a1b99ba0d39941402d40a874007741395cdfacb2e6d64132e46a39869284412ab3a7ed9900e54121de29443266ea411696e55e01eb3c410ae62f7455bb3740fe0f741eba923c40ef6229723922f740de6f199482cdc340cb35e1f28ee63740b6358aaa6aa10540a052a54d7cf7b640852d24cf787dc140677c56dd230f1a4045000000000000401a3ad12a1da160,
  0x3ff0000000000000401a3ad12a1da160403e0cca12e97894405bc5c37001f29a4075f4c2f298f2ee408ea8f75f86c2c740a34a331db35ab340b62ca0f5f5cc6940c784f959ebed5c40d730c2ad1c0ec240e5616c35a8381a40f2841f8360f84e40fe3c96aee3883b41075895f988d0c841111669b4ef16794117c25fd43793e2411f6e39951d05714123ce22c61cd9e74127cd8b7f2f5d63412b4dc67fb87789412de8ea513b825d412f4d3d4484e060412f4d3d4484e060412de8ea513b825d412b4dc67fb877894127cd8b7f2f5d634123ce22c61cd9e7411f6e39951d05714117c25fd43793e241111669b4ef167941075895f988d0c840fe3c96aee3883b40f2841f8360f84e40e5616c35a8381a40d730c2ad1c0ec240c784f959ebed5c40b62ca0f5f5cc6940a34a331db35ab3408ea8f75f86c2c74075f4c2f298f2ee405bc5c37001f29a403e0cca12e97894401a3ad12a1da1603ff0000000000000]

/-- The coefficients for `2 ell = 44`: one number for each of the 45 values of `mp`, consisting of the doubles for the 45 values of `m`. -/
def wigner44 : List Nat := [
  0x3ff0000000000000401a887293fd6f34403ec1d2284fc275405cc548f9a00a9c4077071aba964a4a40904877e2c2703940a4c1c67a70094140b82e5c638f597540ca006fef0f0de140da006fef0f0de140e85286e27f18f840f5616c35a8381a4101ba52856f154d410bd04e5040a1114114b1ad5831184a411d440bfdd673f84123b33d06098bef4129486172660dd5412ef703d7a1b82f41321c7e123117cf41343fc193fff0414135a5ab1ef6ef8f4136223743131d484135a5ab1ef6ef8f41343fc193fff04141321c7e123117cf412ef703d7a1b82f4129486172660dd54123b33d06098bef411d440bfdd673f84114b1ad5831184a410bd04e5040a1114101ba52856f154d40f5616c35a8381a40e85286e27f18f840da006fef0f0de140ca006fef0f0de140b82e5c638f597540a4c1c67a70094140904877e2c270394077071aba964a4a405cc548f9a00a9c403ec1d2284fc275401a887293fd6f343ff0000000000000,
  0x401a887293fd6f344045800000000000406857df23138dc440863a965a55e37640a15b9a260137a040b7ef18ec45157440cdba46dc7b922c40e0dc32b5ad91a740f1a3bb0370f2054101264b26e6b269410f2ad0ec60c33b411a977bc8269ff44125616c35a8381a41303f8717b70f0a413765e95d10d479413ffca5a50147b04144ca13d9b0a1664149ba4cb5f13a87414e57c6ae7e1d6e4151109c0fd34ab5415250e2458713834152c3c4aa1fe51641525a2d919df1474151220c9b54c609414e86ce73e120854149f0495fbc0b29414501b0eef4d94c414032ededd0c6094137c25fd43793e241308b81d0ef01c54125d6958a0fb53e411b4145b42acee841100911283e2a134101ba52856f154d40f2556bd657096e40e1a3bb0370f20540cf5bf7228fe72640b9849fc6dd2f7940a2c67d98b9d59540888c33d181ee9e406bc5c37001f29a404a0626a83299e840228c17b93378333ff0000000000000401a887293fd6f34,
  0x403ec1d2284fc275406857df23138dc4408ae8000000000040a7f8516ff07aad40c23fde30f93b6b40d884ab05031b3340eda6e5037e399c41005cd936263d5c4110a4c1fd378887411f7019173001e2412bba1e0e798e144136f08f015aa05d4141de29443266ea414a4800491e35c941524ad6b0708e0041582508199896d6415e4392fa8718d44162086c57fb8f0441647321577231bf416614f3942f05d14166b693981ef8354166420a469c7c304164c77c0273bb44416279993999295b415f45938ea8c8bf41592c5d5c21203b4153411393b65960414bf2cc626f4538414337183d8a99ec4138fa2bb08c321c412e9d06c7f1ebe24121a2458f33a69041130544b3f396d841031dcc8120daf840f1caf11022321a40de6f199482cdc340c7abbe8ff3f55f40b08295faac599740943ef8dce0903640752d24cf787dc14051f7fe3818d80b4026732f8d0e2f763ff000000000000040228c17b9337833403ec1d2284fc275,
  0x405cc548f9a00a9c40863a965a55e37640a7f8516ff07aad40c4d2000000000040dee3dbc247b6cb40f43452a2edaaaa4107c6417849651541198283d365f7d3412934d58185c6fa41371b190c0ff6664143c2cdf1516045414fad1f000201314157e07ae1fe67944160f97d86eb144e4166d086a27a0ca6416d09c69f2ffdc64171865b612855d7417414cbbc5cd8754175dc96f28f627f41769f74f4c295744176420a469c7c304174d2074b71b8db417282f92ea4f5cd416f45938ea8c8bf416912bda999014541630fee91affa97415b71df5e313eff4152ac80312163534147f73061db4310413ced4b4165c0f841305d111e065339412147cbd1f6a98b4110f1e3981fe66940fea7895ad8a65040e95c955117ab7840d2fa9abbe0357140b94e23a52af1ec409d6aaf14101b7a407cdbc61020c4804056a3724d10762c40299ccc999fff003ff00000000000004026732f8d0e2f76404a0626a83299e8405cc548f9a00a9c,
  0x4077071aba964a4a40a15b9a260137a040c23fde30f93b6b40dee3dbc247b6cb40f64fe000000000410c6607aced914241203e7f11d0e1234130ee8dda7f476441403d061c2db122414cde43c0513ae84157eae83501c0fa41628d1eab415f4f416b08ea4cc3ac4e41728e8f9eb5c3d041780cec91de5465417d7a3eacc4452541811b11fcd3a73f4182d12501946ed64183a1bb8db9aab941836e9ad5d4d89c41823fe495d4dd2c4180420d91beabd8417b76fb38bcdf064175fa2ca6a8b3ae4170a45d883327124167d0f047aef0a0416012b6aa7cf49341546a1f1aa8541241485402d3aa2c70413b1b136112a3a0412c1c72158a0bf0411afccf1421c4b34107d12e17c64c0d40f3265134e8a47240dbb9cc4e94bc3340c1c8b81cab9b6440a3c293ae1401fd4082606185159a22405b0aa8901b4454402c48c6001f0abf3ff000000000000040299ccc999fff004051f7fe3818d80b406bc5c37001f29a4077071aba964a4a,
  0x40904877e2c2703940b7ef18ec45157440d884ab05031b3340f43452a2edaaaa410c6607aced91424121921a00000000413386da06be9ac44143c13ce0b45f8741525f22b8627bcf415fa3d83d8d2a8f41695e52dae8f0754173054ba4c254c1417ac35b45a45b374181b6db973cc66641861baf019333db418a0e0048b0db6e418d078756e50590418e9a5782974ca7418e8a348635601b418cdae94a6e30164189cf0de7b8b8ed4185d7baef7d644d41817a7d3719c251417a6b1eceaff1ba4172d40d9d0ce778416942c7a9e6a289415fd2b7986116ba4152c40dc1c63a624144a4a4820ef2e341351555902788f44123e0a7cfb855dc41112cbd3320b66040faf22bf979fe0740e2f50be3b601e440c786ae6ee479c740a926846891c63d40865b205cf35ae1405f2f9964682378402e98180e9b47f13ff0000000000000402c48c6001f0abf4056a3724d10762c40752d24cf787dc140888c33d181ee9e40904877e2c27039,
  0x40a4c1c67a70094140cdba46dc7b922c40eda6e5037e399c4107c6417849651541203e7f11d0e123413386da06be9ac441450ff4800000004154a9a1b32c50da41629d87dc69e9d3416f068d1a05db0a41780bef464c9a6c4181686bd71aefc341879e7a1efbb332418e1bc6ae58e69e419210d04bb364ba419470611d72c0ad4195d2dd158b00734196019dcdd1a2604194f6777592929e4192dcf9981cb927419007354c7918814189b3c567abf29541836c9c4ead7d0f417ba1e774843e794172767374dab40141671e73eb5d3409415b0b60d8710126414d713838cdd137413db04b2ede3d75412b90b20e36b759411763ce01bb2ef74101f6c7fba6a95a40e8a9442f28685540cdbe15f03bb10040aec24ccac2cbb7408a4e62756f1e5b40618996f8f4bee740304f3bd03c0a643ff0000000000000402e98180e9b47f1405b0aa8901b4454407cdbc61020c48040943ef8dce0903640a2c67d98b9d59540a4c1c67a700941,
  0x40b82e5c638f597540e0dc32b5ad91a741005cd936263d5c41198283d365f7d34130ee8dda7f47644143c13ce0b45f874154a9a1b32c50da4163a3160000000041711ee6ca573b1a417b95576270181b4184a4395827ee2a418cd17fd82b10874192d38866a620254197136d09df7eea419a95928c6f1965419cd2cefbdd72c6419d70282a983236419c55cd8a1d81f34199b4c89b4629bf4195f995ea166ae14191b082517c5993418aca568c0932ab41830e3ebc634ac4417969eef018ea3f416fb2531433790b41626d7cb3f2e7b14153e5fea5eddcb94143db80a01c981441323409ff218339411e6c20b3dd11214106f22c7e64ae4e40eed72469e201d340d22518272d7c5240b23c7ed772ed11408e2cde7241d99940635af0797de17740313463fa37014e3ff000000000000040304f3bd03c0a64405f2f99646823784082606185159a22409d6aaf14101b7a40b08295faac599740b9849fc6dd2f7940b82e5c638f5975,
  0x40ca006fef0f0de140f1a3bb0370f2054110a4c1fd378887412934d58185c6fa41403d061c2db12241525f22b8627bcf41629d87dc69e9d341711ee6ca573b1a417cdbc7400000004186720cc0000000419032615b3fdf1f4195c6827eca4426419b5b3dca8a9f2d41a018588c7f68a941a1c501e76a051541a26dbad92d8fd941a1f7513ce30c8f41a0782ff225e20a419c63815aad0f934196fda63e2d5ecc41917aa46203d7474188ea1ff67ad6ad41809d222e896d194174ae1881b5e5cb4167f3430de4357b4159b4c2c7edc2ac414971d03d66c9d7413715739925d82641230b7781bc3598410c4acfca8a441540f2ac0307ece6f040d582bff6b3cb3a40b517cfffc962804090f59cd3976cd240650bfc943d4c7f40320000000000003ff000000000000040313463fa37014e40618996f8f4bee740865b205cf35ae140a3c293ae1401fd40b94e23a52af1ec40c7abbe8ff3f55f40cf5bf7228fe72640ca006fef0f0de1,
  0x40da006fef0f0de14101264b26e6b269411f7019173001e241371b190c0ff666414cde43c0513ae8415fa3d83d8d2a8f416f068d1a05db0a417b95576270181b4186720cc00000004190d58990000000419765374aea7b2d419e3e5fe8fc7b1941a23cd3dc5c6a1e41a490e2ec69e94a41a5b7e5e1f35b8c41a58004a80a7d2841a3f65a43a6f18341a1626b7f99c3ee419c63815aad0f934195b6ab3ab9126b418f12eb58ea62464184c31aa2bbb2e54179d7fc4863ff0b416ddf06f43fa142415fef0412859ca5414f6b26f45b7c28413c45920b55c3d2412715739925d8264110edbf8fc3bddd40f6014c4832a6bb40d8e5595fe6894140b7e69c677270074092bfd55524c95540669cd11a1f3bc24032b5524ae1278d3ff0000000000000403200000000000040635af0797de177408a4e62756f1e5b40a926846891c63d40c1c8b81cab9b6440d2fa9abbe0357140de6f199482cdc340e1a3bb0370f20540da006fef0f0de1,
  0x40e85286e27f18f8410f2ad0ec60c33b412bba1e0e798e144143c2cdf15160454157eae83501c0fa41695e52dae8f07541780bef464c9a6c4184a4395827ee2a419032615b3fdf1f419765374aea7b2d419f436d3000000041a3662b01a0e74141a66bdd5811974a41a82f3d889ac49741a860f8521b04bc41a6fc0afe919ce641a44609718091bf41a0b9edda6047284199cbe57ea7e6bb419291f93ca140254188ea1ff67ad6ad417f12eb58ea62464171f54f966b17b54163290271835dfc4152c6b3e9fc1c384140cb3ee4771d12412b338f39bfecda4113bdf9be25b50d40f9562917a16b5c40dc3ab2d903492f40ba9d6594e7a2b6409470db2fdc80e040680d7c362140be403356cdebc9b5e23ff00000000000004032b5524ae1278d40650bfc943d4c7f408e2cde7241d99940aec24ccac2cbb740c786ae6ee479c740dbb9cc4e94bc3340e95c955117ab7840f1caf11022321a40f2556bd657096e40e85286e27f18f8,
  0x40f5616c35a8381a411a977bc8269ff44136f08f015aa05d414fad1f0002013141628d1eab415f4f4173054ba4c254c14181686bd71aefc3418cd17fd82b10874195c6827eca4426419e3e5fe8fc7b1941a3662b01a0e74141a71245a000000041a981a11cee434d41aa42f84337cfac41a93641ed1add9041a694e0300947cc41a2deaae37fff87419d680d37fc1067419557ab71fade37418ccea9e52138654182094510bd89074174e3687a42c1814166494f9600cf364155cbe774722e1741436af943508f49412f431cfdff8b1e4116813bc0f2092140fc95603cf1baba40df71649cff693f40bd31ac7ddae937409604ff6eaca85640695e077d6eedc14033e655eefe13673ff0000000000000403356cdebc9b5e240669cd11a1f3bc24090f59cd3976cd240b23c7ed772ed1140cdbe15f03bb10040e2f50be3b601e440f3265134e8a47240fea7895ad8a65041031dcc8120daf84101ba52856f154d40f5616c35a8381a,
  0x4101ba52856f154d4125616c35a8381a4141de29443266ea4157e07ae1fe6794416b08ea4cc3ac4e417ac35b45a45b3741879e7a1efbb3324192d38866a62025419b5b3dca8a9f2d41a23cd3dc5c6a1e41a66bdd5811974a41a981a11cee434d41aaeaa69000000041aa64d6bf3a0bdf41a8126f2a2ab74741a46cffb452a85141a01ec0c572a7b74197a4c800560572419016656040586e4184444566476107417790b0a140f88d416931378311a7394158a37560794bcb4145e803bfe2d4324131906a356813e4411922bec329044340ffaa5c4472efd040e13c8b30a2107140bf99f1c2991cf44097790f50cc44a5406a8e79a1ab9a94403465655f122ff63ff00000000000004033e655eefe136740680d7c362140be4092bfd55524c95540b517cfffc9628040d22518272d7c5240e8a9442f28685540faf22bf979fe074107d12e17c64c0d4110f1e3981fe66941130544b3f396d841100911283e2a134101ba52856f154d,
  0x410bd04e5040a11141303f8717b70f0a414a4800491e35c94160f97d86eb144e41728e8f9eb5c3d04181b6db973cc666418e1bc6ae58e69e4197136d09df7eea41a018588c7f68a941a490e2ec69e94a41a82f3d889ac49741aa42f84337cfac41aa64d6bf3a0bdf41a896582600000041a53e7ccf1e14ac41a10656418d3f4a41994a9533309cac4191636e24d8830f418615c98f768ab24179d5c61d51571d416bbaa5a43c4be6415b2c6009ea7496414828f8cfd1eb25413355332059e7b0411b8e8e5a129492410140d9c9ac4dc440e2a15d3df2a1c140c0e6dae768109d4098ca46457aff11406b9ed76ec6f2904034d529a457fcfb3ff0000000000000403465655f122ff640695e077d6eedc1409470db2fdc80e040b7e69c6772700740d582bff6b3cb3a40eed72469e201d34101f6c7fba6a95a41112cbd3320b660411afccf1421c4b3412147cbd1f6a98b4121a2458f33a690411b4145b42acee8410bd04e5040a111,
  0x4114b1ad5831184a413765e95d10d47941524ad6b0708e004166d086a27a0ca641780cec91de546541861baf019333db419210d04bb364ba419a95928c6f196541a1c501e76a051541a5b7e5e1f35b8c41a860f8521b04bc41a93641ed1add9041a8126f2a2ab74741a53e7ccf1e14ac41a155f2a6000000419a269ea9176358419235d94b60f27c41875ee9e906601f417b9027042cbf88416dc34fb3cbb3b1415d486941ce5135414a1655778b649f4134dffc9ba80308411db236cadd696f410284d039ce5ddb40e3e05ff7d9832240c1e2bc763fceab4099f643197822ad406c8f246603e828403536948017480f3ff00000000000004034d529a457fcfb406a8e79a1ab9a94409604ff6eaca85640ba9d6594e7a2b640d8e5595fe6894140f2ac0307ece6f04106f22c7e64ae4e411763ce01bb2ef74123e0a7cfb855dc412c1c72158a0bf041305d111e065339412e9d06c7f1ebe24125d6958a0fb53e4114b1ad5831184a,
  0x411d440bfdd673f8413ffca5a50147b041582508199896d6416d09c69f2ffdc6417d7a3eacc44525418a0e0048b0db6e419470611d72c0ad419cd2cefbdd72c641a26dbad92d8fd941a58004a80a7d2841a6fc0afe919ce641a694e0300947cc41a46cffb452a85141a10656418d3f4a419a269ea917635841927dcfa00000004188095394ab9220417ca4f7fbc41805416f2f2009956004415edde9432d52bf414b9baf29226d42413622c1126c8dd9411f7d5fdb6aaa54410399348dc8551d40e4f39e3986652140c2bd5da7abceac409afaff89654aa1406d5f63202249a240358a68a4a8d9f33ff0000000000000403536948017480f406b9ed76ec6f2904097790f50cc44a540bd31ac7ddae93740dc3ab2d903492f40f6014c4832a6bb410c4acfca8a4415411e6c20b3dd1121412b90b20e36b75941351555902788f4413b1b136112a3a0413ced4b4165c0f84138fa2bb08c321c41308b81d0ef01c5411d440bfdd673f8,
  0x4123b33d06098bef4144ca13d9b0a166415e4392fa8718d44171865b612855d741811b11fcd3a73f418d078756e505904195d2dd158b0073419d70282a98323641a1f7513ce30c8f41a3f65a43a6f18341a44609718091bf41a2deaae37fff8741a01ec0c572a7b741994a9533309cac419235d94b60f27c4188095394ab9220417d032fb0000000416fea30480a748f415fd95c34cb2a27414ca8bd8744923c413711f6490f5ba341207128ca8e72904104775bd965f91540e5d607a0bd2de740c373fe8de11a57409bd6c9abab3c2c406e0f958d5e26d44035d142b6dbadc53ff000000000000040358a68a4a8d9f3406c8f246603e8284098ca46457aff1140bf99f1c2991cf440df71649cff693f40f9562917a16b5c4110edbf8fc3bddd41230b7781bc359841323409ff218339413db04b2ede3d754144a4a4820ef2e341485402d3aa2c704147f73061db4310414337183d8a99ec4137c25fd43793e24123b33d06098bef,
  0x4129486172660dd54149ba4cb5f13a874162086c57fb8f04417414cbbc5cd8754182d12501946ed6418e9a5782974ca74196019dcdd1a260419c55cd8a1d81f341a0782ff225e20a41a1626b7f99c3ee41a0b9edda604728419d680d37fc10674197a4c8005605724191636e24d8830f41875ee9e906601f417ca4f7fbc41805416fea30480a748f41601747a0000000414d322c4b4085eb4137a5055dd212ef4120eb307157eee2410519f12ab6a3d540e6837eaa84b96840c4045f35ac3e52409c883ecea9346b406e9fbd201b4b6640360b9fd68a45543ff00000000000004035d142b6dbadc5406d5f63202249a24099f643197822ad40c0e6dae768109d40e13c8b30a2107140fc95603cf1baba4113bdf9be25b50d412715739925d826413715739925d8264143db80a01c9814414d713838cdd1374152c40dc1c63a6241546a1f1aa854124152ac8031216353414bf2cc626f4538414032ededd0c6094129486172660dd5,
  0x412ef703d7a1b82f414e57c6ae7e1d6e41647321577231bf4175dc96f28f627f4183a1bb8db9aab9418e8a348635601b4194f6777592929e4199b4c89b4629bf419c63815aad0f93419c63815aad0f934199cbe57ea7e6bb419557ab71fade37419016656040586e418615c98f768ab2417b9027042cbf88416f2f2009956004415fd95c34cb2a27414d322c4b4085eb4137d6a30000000041212921347b59b941057d118b1e1d5f40e6f8e3bea3195b40c46cbfa7df319f409d0e4784da6efe406f0fdae9c3be56403639e2653e421a3ff000000000000040360b9fd68a4554406e0f958d5e26d4409afaff89654aa140c1e2bc763fceab40e2a15d3df2a1c140ffaa5c4472efd04116813bc0f20921412b338f39bfecda413c45920b55c3d2414971d03d66c9d74153e5fea5eddcb9415b0b60d8710126415fd2b7986116ba416012b6aa7cf493415b71df5e313eff4153411393b65960414501b0eef4d94c412ef703d7a1b82f,
  0x41321c7e123117cf4151109c0fd34ab5416614f3942f05d141769f74f4c2957441836e9ad5d4d89c418cdae94a6e30164192dcf9981cb9274195f995ea166ae14196fda63e2d5ecc4195b6ab3ab9126b419291f93ca14025418ccea9e521386541844445664761074179d5c61d51571d416dc34fb3cbb3b1415edde9432d52bf414ca8bd8744923c4137a5055dd212ef41212921347b59b941059e600000000040e7341d5542cac840c4abdfea3b143e409d6814acfefd10406f5fefae63c9ba40365c55827df1d13ff0000000000000403639e2653e421a406e9fbd201b4b66409bd6c9abab3c2c40c2bd5da7abceac40e3e05ff7d98322410140d9c9ac4dc4411922bec3290443412f431cfdff8b1e4140cb3ee4771d12414f6b26f45b7c284159b4c2c7edc2ac41626d7cb3f2e7b141671e73eb5d3409416942c7a9e6a2894167d0f047aef0a041630fee91affa9741592c5d5c21203b4149f0495fbc0b2941321c7e123117cf,
  0x41343fc193fff041415250e2458713834166b693981ef8354176420a469c7c3041823fe495d4dd2c4189cf0de7b8b8ed419007354c7918814191b082517c599341917aa46203d747418f12eb58ea62464188ea1ff67ad6ad4182094510bd8907417790b0a140f88d416bbaa5a43c4be6415d486941ce5135414b9baf29226d42413711f6490f5ba34120eb307157eee241057d118b1e1d5f40e7341d5542cac840c4c10000000000409d951d5334068b406f8ffbf1ce0f6c4036732f8d0e2f763ff000000000000040365c55827df1d1406f0fdae9c3be56409c883ecea9346b40c373fe8de11a5740e4f39e39866521410284d039ce5ddb411b8e8e5a1294924131906a356813e441436af943508f494152c6b3e9fc1c38415fef0412859ca54167f3430de4357b416fb2531433790b4172767374dab4014172d40d9d0ce7784170a45d88332712416912bda9990145415f45938ea8c8bf414e86ce73e1208541343fc193fff041,
  0x4135a5ab1ef6ef8f4152c3c4aa1fe5164166420a469c7c304174d2074b71b8db4180420d91beabd84185d7baef7d644d4189b3c567abf295418aca568c0932ab4188ea1ff67ad6ad4184c31aa2bbb2e5417f12eb58ea62464174e3687a42c181416931378311a739415b2c6009ea7496414a1655778b649f413622c1126c8dd941207128ca8e7290410519f12ab6a3d540e6f8e3bea3195b40c4abdfea3b143e409d951d5334068b406fa0000000000040367e93ddbc0e723ff00000000000004036732f8d0e2f76406f5fefae63c9ba409d0e4784da6efe40c4045f35ac3e5240e5d607a0bd2de7410399348dc8551d411db236cadd696f413355332059e7b04145e803bfe2d4324155cbe774722e174163290271835dfc416ddf06f43fa1424174ae1881b5e5cb417969eef018ea3f417ba1e774843e79417a6b1eceaff1ba4175fa2ca6a8b3ae416f45938ea8c8bf416279993999295b4151220c9b54c6094135a5ab1ef6ef8f,
  0x4136223743131d4841525a2d919df1474164c77c0273bb44417282f92ea4f5cd417b76fb38bcdf0641817a7d3719c25141836c9c4ead7d0f41830e3ebc634ac441809d222e896d194179d7fc4863ff0b4171f54f966b17b54166494f9600cf364158a37560794bcb414828f8cfd1eb254134dffc9ba80308411f7d5fdb6aaa544104775bd965f91540e6837eaa84b96840c46cbfa7df319f409d6814acfefd10406f8ffbf1ce0f6c40367e93ddbc0e723ff000000000000040367e93ddbc0e72406f8ffbf1ce0f6c409d6814acfefd1040c46cbfa7df319f40e6837eaa84b9684104775bd965f915411f7d5fdb6aaa544134dffc9ba80308414828f8cfd1eb254158a37560794bcb4166494f9600cf364171f54f966b17b54179d7fc4863ff0b41809d222e896d1941830e3ebc634ac441836c9c4ead7d0f41817a7d3719c251417b76fb38bcdf06417282f92ea4f5cd4164c77c0273bb4441525a2d919df1474136223743131d48,
  0x4135a5ab1ef6ef8f4151220c9b54c609416279993999295b416f45938ea8c8bf4175fa2ca6a8b3ae417a6b1eceaff1ba417ba1e774843e79417969eef018ea3f4174ae1881b5e5cb416ddf06f43fa1424163290271835dfc4155cbe774722e174145e803bfe2d432413355332059e7b0411db236cadd696f410399348dc8551d40e5d607a0bd2de740c4045f35ac3e52409d0e4784da6efe406f5fefae63c9ba4036732f8d0e2f763ff000000000000040367e93ddbc0e72406fa00000000000409d951d5334068b40c4abdfea3b143e40e6f8e3bea3195b410519f12ab6a3d541207128ca8e7290413622c1126c8dd9414a1655778b649f415b2c6009ea7496416931378311a7394174e3687a42c181417f12eb58ea62464184c31aa2bbb2e54188ea1ff67ad6ad418aca568c0932ab4189b3c567abf2954185d7baef7d644d4180420d91beabd84174d2074b71b8db4166420a469c7c304152c3c4aa1fe5164135a5ab1ef6ef8f,
  0x41343fc193fff041414e86ce73e12085415f45938ea8c8bf416912bda99901454170a45d883327124172d40d9d0ce7784172767374dab401416fb2531433790b4167f3430de4357b415fef0412859ca54152c6b3e9fc1c3841436af943508f494131906a356813e4411b8e8e5a129492410284d039ce5ddb40e4f39e3986652140c373fe8de11a57409c883ecea9346b406f0fdae9c3be5640365c55827df1d13ff00000000000004036732f8d0e2f76406f8ffbf1ce0f6c409d951d5334068b40c4c1000000000040e7341d5542cac841057d118b1e1d5f4120eb307157eee2413711f6490f5ba3414b9baf29226d42415d486941ce5135416bbaa5a43c4be6417790b0a140f88d4182094510bd89074188ea1ff67ad6ad418f12eb58ea624641917aa46203d7474191b082517c5993419007354c7918814189cf0de7b8b8ed41823fe495d4dd2c4176420a469c7c304166b693981ef835415250e24587138341343fc193fff041,
  0x41321c7e123117cf4149f0495fbc0b2941592c5d5c21203b41630fee91affa974167d0f047aef0a0416942c7a9e6a28941671e73eb5d340941626d7cb3f2e7b14159b4c2c7edc2ac414f6b26f45b7c284140cb3ee4771d12412f431cfdff8b1e411922bec3290443410140d9c9ac4dc440e3e05ff7d9832240c2bd5da7abceac409bd6c9abab3c2c406e9fbd201b4b66403639e2653e421a3ff000000000000040365c55827df1d1406f5fefae63c9ba409d6814acfefd1040c4abdfea3b143e40e7341d5542cac841059e600000000041212921347b59b94137a5055dd212ef414ca8bd8744923c415edde9432d52bf416dc34fb3cbb3b14179d5c61d51571d4184444566476107418ccea9e5213865419291f93ca140254195b6ab3ab9126b4196fda63e2d5ecc4195f995ea166ae14192dcf9981cb927418cdae94a6e301641836e9ad5d4d89c41769f74f4c29574416614f3942f05d14151109c0fd34ab541321c7e123117cf,
  0x412ef703d7a1b82f414501b0eef4d94c4153411393b65960415b71df5e313eff416012b6aa7cf493415fd2b7986116ba415b0b60d87101264153e5fea5eddcb9414971d03d66c9d7413c45920b55c3d2412b338f39bfecda4116813bc0f2092140ffaa5c4472efd040e2a15d3df2a1c140c1e2bc763fceab409afaff89654aa1406e0f958d5e26d440360b9fd68a45543ff0000000000000403639e2653e421a406f0fdae9c3be56409d0e4784da6efe40c46cbfa7df319f40e6f8e3bea3195b41057d118b1e1d5f41212921347b59b94137d6a300000000414d322c4b4085eb415fd95c34cb2a27416f2f2009956004417b9027042cbf88418615c98f768ab2419016656040586e419557ab71fade374199cbe57ea7e6bb419c63815aad0f93419c63815aad0f934199b4c89b4629bf4194f6777592929e418e8a348635601b4183a1bb8db9aab94175dc96f28f627f41647321577231bf414e57c6ae7e1d6e412ef703d7a1b82f,
  0x4129486172660dd5414032ededd0c609414bf2cc626f45384152ac803121635341546a1f1aa854124152c40dc1c63a62414d713838cdd1374143db80a01c9814413715739925d826412715739925d8264113bdf9be25b50d40fc95603cf1baba40e13c8b30a2107140c0e6dae768109d4099f643197822ad406d5f63202249a24035d142b6dbadc53ff000000000000040360b9fd68a4554406e9fbd201b4b66409c883ecea9346b40c4045f35ac3e5240e6837eaa84b968410519f12ab6a3d54120eb307157eee24137a5055dd212ef414d322c4b4085eb41601747a0000000416fea30480a748f417ca4f7fbc4180541875ee9e906601f4191636e24d8830f4197a4c800560572419d680d37fc106741a0b9edda60472841a1626b7f99c3ee41a0782ff225e20a419c55cd8a1d81f34196019dcdd1a260418e9a5782974ca74182d12501946ed6417414cbbc5cd8754162086c57fb8f044149ba4cb5f13a874129486172660dd5,
  0x4123b33d06098bef4137c25fd43793e2414337183d8a99ec4147f73061db431041485402d3aa2c704144a4a4820ef2e3413db04b2ede3d7541323409ff21833941230b7781bc35984110edbf8fc3bddd40f9562917a16b5c40df71649cff693f40bf99f1c2991cf44098ca46457aff11406c8f246603e82840358a68a4a8d9f33ff00000000000004035d142b6dbadc5406e0f958d5e26d4409bd6c9abab3c2c40c373fe8de11a5740e5d607a0bd2de74104775bd965f91541207128ca8e7290413711f6490f5ba3414ca8bd8744923c415fd95c34cb2a27416fea30480a748f417d032fb00000004188095394ab9220419235d94b60f27c41994a9533309cac41a01ec0c572a7b741a2deaae37fff8741a44609718091bf41a3f65a43a6f18341a1f7513ce30c8f419d70282a9832364195d2dd158b0073418d078756e5059041811b11fcd3a73f4171865b612855d7415e4392fa8718d44144ca13d9b0a1664123b33d06098bef,
  0x411d440bfdd673f841308b81d0ef01c54138fa2bb08c321c413ced4b4165c0f8413b1b136112a3a041351555902788f4412b90b20e36b759411e6c20b3dd1121410c4acfca8a441540f6014c4832a6bb40dc3ab2d903492f40bd31ac7ddae9374097790f50cc44a5406b9ed76ec6f290403536948017480f3ff000000000000040358a68a4a8d9f3406d5f63202249a2409afaff89654aa140c2bd5da7abceac40e4f39e39866521410399348dc8551d411f7d5fdb6aaa54413622c1126c8dd9414b9baf29226d42415edde9432d52bf416f2f2009956004417ca4f7fbc418054188095394ab922041927dcfa0000000419a269ea917635841a10656418d3f4a41a46cffb452a85141a694e0300947cc41a6fc0afe919ce641a58004a80a7d2841a26dbad92d8fd9419cd2cefbdd72c6419470611d72c0ad418a0e0048b0db6e417d7a3eacc44525416d09c69f2ffdc641582508199896d6413ffca5a50147b0411d440bfdd673f8,
  0x4114b1ad5831184a4125d6958a0fb53e412e9d06c7f1ebe241305d111e065339412c1c72158a0bf04123e0a7cfb855dc411763ce01bb2ef74106f22c7e64ae4e40f2ac0307ece6f040d8e5595fe6894140ba9d6594e7a2b6409604ff6eaca856406a8e79a1ab9a944034d529a457fcfb3ff0000000000000403536948017480f406c8f246603e8284099f643197822ad40c1e2bc763fceab40e3e05ff7d98322410284d039ce5ddb411db236cadd696f4134dffc9ba80308414a1655778b649f415d486941ce5135416dc34fb3cbb3b1417b9027042cbf8841875ee9e906601f419235d94b60f27c419a269ea917635841a155f2a600000041a53e7ccf1e14ac41a8126f2a2ab74741a93641ed1add9041a860f8521b04bc41a5b7e5e1f35b8c41a1c501e76a0515419a95928c6f1965419210d04bb364ba41861baf019333db41780cec91de54654166d086a27a0ca641524ad6b0708e00413765e95d10d4794114b1ad5831184a,
  0x410bd04e5040a111411b4145b42acee84121a2458f33a690412147cbd1f6a98b411afccf1421c4b341112cbd3320b6604101f6c7fba6a95a40eed72469e201d340d582bff6b3cb3a40b7e69c67727007409470db2fdc80e040695e077d6eedc1403465655f122ff63ff00000000000004034d529a457fcfb406b9ed76ec6f2904098ca46457aff1140c0e6dae768109d40e2a15d3df2a1c1410140d9c9ac4dc4411b8e8e5a129492413355332059e7b0414828f8cfd1eb25415b2c6009ea7496416bbaa5a43c4be64179d5c61d51571d418615c98f768ab24191636e24d8830f41994a9533309cac41a10656418d3f4a41a53e7ccf1e14ac41a896582600000041aa64d6bf3a0bdf41aa42f84337cfac41a82f3d889ac49741a490e2ec69e94a41a018588c7f68a94197136d09df7eea418e1bc6ae58e69e4181b6db973cc66641728e8f9eb5c3d04160f97d86eb144e414a4800491e35c941303f8717b70f0a410bd04e5040a111,
  0x4101ba52856f154d41100911283e2a1341130544b3f396d84110f1e3981fe6694107d12e17c64c0d40faf22bf979fe0740e8a9442f28685540d22518272d7c5240b517cfffc962804092bfd55524c95540680d7c362140be4033e655eefe13673ff0000000000000403465655f122ff6406a8e79a1ab9a944097790f50cc44a540bf99f1c2991cf440e13c8b30a2107140ffaa5c4472efd0411922bec32904434131906a356813e44145e803bfe2d4324158a37560794bcb416931378311a739417790b0a140f88d4184444566476107419016656040586e4197a4c80056057241a01ec0c572a7b741a46cffb452a85141a8126f2a2ab74741aa64d6bf3a0bdf41aaeaa69000000041a981a11cee434d41a66bdd5811974a41a23cd3dc5c6a1e419b5b3dca8a9f2d4192d38866a6202541879e7a1efbb332417ac35b45a45b37416b08ea4cc3ac4e4157e07ae1fe67944141de29443266ea4125616c35a8381a4101ba52856f154d,
  0x40f5616c35a8381a4101ba52856f154d41031dcc8120daf840fea7895ad8a65040f3265134e8a47240e2f50be3b601e440cdbe15f03bb10040b23c7ed772ed114090f59cd3976cd240669cd11a1f3bc2403356cdebc9b5e23ff00000000000004033e655eefe136740695e077d6eedc1409604ff6eaca85640bd31ac7ddae93740df71649cff693f40fc95603cf1baba4116813bc0f20921412f431cfdff8b1e41436af943508f494155cbe774722e174166494f9600cf364174e3687a42c1814182094510bd8907418ccea9e5213865419557ab71fade37419d680d37fc106741a2deaae37fff8741a694e0300947cc41a93641ed1add9041aa42f84337cfac41a981a11cee434d41a71245a000000041a3662b01a0e741419e3e5fe8fc7b194195c6827eca4426418cd17fd82b10874181686bd71aefc34173054ba4c254c141628d1eab415f4f414fad1f000201314136f08f015aa05d411a977bc8269ff440f5616c35a8381a,
  0x40e85286e27f18f840f2556bd657096e40f1caf11022321a40e95c955117ab7840dbb9cc4e94bc3340c786ae6ee479c740aec24ccac2cbb7408e2cde7241d99940650bfc943d4c7f4032b5524ae1278d3ff0000000000000403356cdebc9b5e240680d7c362140be409470db2fdc80e040ba9d6594e7a2b640dc3ab2d903492f40f9562917a16b5c4113bdf9be25b50d412b338f39bfecda4140cb3ee4771d124152c6b3e9fc1c384163290271835dfc4171f54f966b17b5417f12eb58ea62464188ea1ff67ad6ad419291f93ca140254199cbe57ea7e6bb41a0b9edda60472841a44609718091bf41a6fc0afe919ce641a860f8521b04bc41a82f3d889ac49741a66bdd5811974a41a3662b01a0e741419f436d30000000419765374aea7b2d419032615b3fdf1f4184a4395827ee2a41780bef464c9a6c41695e52dae8f0754157eae83501c0fa4143c2cdf1516045412bba1e0e798e14410f2ad0ec60c33b40e85286e27f18f8,
  0x40da006fef0f0de140e1a3bb0370f20540de6f199482cdc340d2fa9abbe0357140c1c8b81cab9b6440a926846891c63d408a4e62756f1e5b40635af0797de17740320000000000003ff00000000000004032b5524ae1278d40669cd11a1f3bc24092bfd55524c95540b7e69c6772700740d8e5595fe6894140f6014c4832a6bb4110edbf8fc3bddd412715739925d826413c45920b55c3d2414f6b26f45b7c28415fef0412859ca5416ddf06f43fa1424179d7fc4863ff0b4184c31aa2bbb2e5418f12eb58ea62464195b6ab3ab9126b419c63815aad0f9341a1626b7f99c3ee41a3f65a43a6f18341a58004a80a7d2841a5b7e5e1f35b8c41a490e2ec69e94a41a23cd3dc5c6a1e419e3e5fe8fc7b19419765374aea7b2d4190d589900000004186720cc0000000417b95576270181b416f068d1a05db0a415fa3d83d8d2a8f414cde43c0513ae841371b190c0ff666411f7019173001e24101264b26e6b26940da006fef0f0de1,
  0x40ca006fef0f0de140cf5bf7228fe72640c7abbe8ff3f55f40b94e23a52af1ec40a3c293ae1401fd40865b205cf35ae140618996f8f4bee740313463fa37014e3ff0000000000000403200000000000040650bfc943d4c7f4090f59cd3976cd240b517cfffc9628040d582bff6b3cb3a40f2ac0307ece6f0410c4acfca8a441541230b7781bc3598413715739925d826414971d03d66c9d74159b4c2c7edc2ac4167f3430de4357b4174ae1881b5e5cb41809d222e896d194188ea1ff67ad6ad41917aa46203d7474196fda63e2d5ecc419c63815aad0f9341a0782ff225e20a41a1f7513ce30c8f41a26dbad92d8fd941a1c501e76a051541a018588c7f68a9419b5b3dca8a9f2d4195c6827eca4426419032615b3fdf1f4186720cc0000000417cdbc74000000041711ee6ca573b1a41629d87dc69e9d341525f22b8627bcf41403d061c2db122412934d58185c6fa4110a4c1fd37888740f1a3bb0370f20540ca006fef0f0de1,
  0x40b82e5c638f597540b9849fc6dd2f7940b08295faac5997409d6aaf14101b7a4082606185159a22405f2f996468237840304f3bd03c0a643ff000000000000040313463fa37014e40635af0797de177408e2cde7241d99940b23c7ed772ed1140d22518272d7c5240eed72469e201d34106f22c7e64ae4e411e6c20b3dd112141323409ff2183394143db80a01c98144153e5fea5eddcb941626d7cb3f2e7b1416fb2531433790b417969eef018ea3f41830e3ebc634ac4418aca568c0932ab4191b082517c59934195f995ea166ae14199b4c89b4629bf419c55cd8a1d81f3419d70282a983236419cd2cefbdd72c6419a95928c6f19654197136d09df7eea4192d38866a62025418cd17fd82b10874184a4395827ee2a417b95576270181b41711ee6ca573b1a4163a316000000004154a9a1b32c50da4143c13ce0b45f874130ee8dda7f476441198283d365f7d341005cd936263d5c40e0dc32b5ad91a740b82e5c638f5975,
  0x40a4c1c67a70094140a2c67d98b9d59540943ef8dce09036407cdbc61020c480405b0aa8901b4454402e98180e9b47f13ff000000000000040304f3bd03c0a6440618996f8f4bee7408a4e62756f1e5b40aec24ccac2cbb740cdbe15f03bb10040e8a9442f2868554101f6c7fba6a95a411763ce01bb2ef7412b90b20e36b759413db04b2ede3d75414d713838cdd137415b0b60d871012641671e73eb5d34094172767374dab401417ba1e774843e7941836c9c4ead7d0f4189b3c567abf295419007354c7918814192dcf9981cb9274194f6777592929e4196019dcdd1a2604195d2dd158b0073419470611d72c0ad419210d04bb364ba418e1bc6ae58e69e41879e7a1efbb3324181686bd71aefc341780bef464c9a6c416f068d1a05db0a41629d87dc69e9d34154a9a1b32c50da41450ff480000000413386da06be9ac441203e7f11d0e1234107c6417849651540eda6e5037e399c40cdba46dc7b922c40a4c1c67a700941,
  0x40904877e2c2703940888c33d181ee9e40752d24cf787dc14056a3724d10762c402c48c6001f0abf3ff0000000000000402e98180e9b47f1405f2f996468237840865b205cf35ae140a926846891c63d40c786ae6ee479c740e2f50be3b601e440faf22bf979fe0741112cbd3320b6604123e0a7cfb855dc41351555902788f44144a4a4820ef2e34152c40dc1c63a62415fd2b7986116ba416942c7a9e6a2894172d40d9d0ce778417a6b1eceaff1ba41817a7d3719c2514185d7baef7d644d4189cf0de7b8b8ed418cdae94a6e3016418e8a348635601b418e9a5782974ca7418d078756e50590418a0e0048b0db6e41861baf019333db4181b6db973cc666417ac35b45a45b374173054ba4c254c141695e52dae8f075415fa3d83d8d2a8f41525f22b8627bcf4143c13ce0b45f87413386da06be9ac44121921a00000000410c6607aced914240f43452a2edaaaa40d884ab05031b3340b7ef18ec45157440904877e2c27039,
  0x4077071aba964a4a406bc5c37001f29a4051f7fe3818d80b40299ccc999fff003ff0000000000000402c48c6001f0abf405b0aa8901b44544082606185159a2240a3c293ae1401fd40c1c8b81cab9b6440dbb9cc4e94bc3340f3265134e8a4724107d12e17c64c0d411afccf1421c4b3412c1c72158a0bf0413b1b136112a3a041485402d3aa2c7041546a1f1aa85412416012b6aa7cf4934167d0f047aef0a04170a45d883327124175fa2ca6a8b3ae417b76fb38bcdf064180420d91beabd841823fe495d4dd2c41836e9ad5d4d89c4183a1bb8db9aab94182d12501946ed641811b11fcd3a73f417d7a3eacc4452541780cec91de546541728e8f9eb5c3d0416b08ea4cc3ac4e41628d1eab415f4f4157eae83501c0fa414cde43c0513ae841403d061c2db1224130ee8dda7f476441203e7f11d0e123410c6607aced914240f64fe00000000040dee3dbc247b6cb40c23fde30f93b6b40a15b9a260137a04077071aba964a4a,
  0x405cc548f9a00a9c404a0626a83299e84026732f8d0e2f763ff000000000000040299ccc999fff004056a3724d10762c407cdbc61020c480409d6aaf14101b7a40b94e23a52af1ec40d2fa9abbe0357140e95c955117ab7840fea7895ad8a6504110f1e3981fe669412147cbd1f6a98b41305d111e065339413ced4b4165c0f84147f73061db43104152ac8031216353415b71df5e313eff41630fee91affa97416912bda9990145416f45938ea8c8bf417282f92ea4f5cd4174d2074b71b8db4176420a469c7c3041769f74f4c295744175dc96f28f627f417414cbbc5cd8754171865b612855d7416d09c69f2ffdc64166d086a27a0ca64160f97d86eb144e4157e07ae1fe6794414fad1f000201314143c2cdf151604541371b190c0ff666412934d58185c6fa41198283d365f7d34107c6417849651540f43452a2edaaaa40dee3dbc247b6cb40c4d2000000000040a7f8516ff07aad40863a965a55e376405cc548f9a00a9c,
  0x403ec1d2284fc27540228c17b93378333ff00000000000004026732f8d0e2f764051f7fe3818d80b40752d24cf787dc140943ef8dce0903640b08295faac599740c7abbe8ff3f55f40de6f199482cdc340f1caf11022321a41031dcc8120daf841130544b3f396d84121a2458f33a690412e9d06c7f1ebe24138fa2bb08c321c414337183d8a99ec414bf2cc626f45384153411393b6596041592c5d5c21203b415f45938ea8c8bf416279993999295b4164c77c0273bb444166420a469c7c304166b693981ef835416614f3942f05d141647321577231bf4162086c57fb8f04415e4392fa8718d441582508199896d641524ad6b0708e00414a4800491e35c94141de29443266ea4136f08f015aa05d412bba1e0e798e14411f7019173001e24110a4c1fd37888741005cd936263d5c40eda6e5037e399c40d884ab05031b3340c23fde30f93b6b40a7f8516ff07aad408ae80000000000406857df23138dc4403ec1d2284fc275,
  0x401a887293fd6f343ff000000000000040228c17b9337833404a0626a83299e8406bc5c37001f29a40888c33d181ee9e40a2c67d98b9d59540b9849fc6dd2f7940cf5bf7228fe72640e1a3bb0370f20540f2556bd657096e4101ba52856f154d41100911283e2a13411b4145b42acee84125d6958a0fb53e41308b81d0ef01c54137c25fd43793e2414032ededd0c609414501b0eef4d94c4149f0495fbc0b29414e86ce73e120854151220c9b54c60941525a2d919df1474152c3c4aa1fe516415250e2458713834151109c0fd34ab5414e57c6ae7e1d6e4149ba4cb5f13a874144ca13d9b0a166413ffca5a50147b0413765e95d10d47941303f8717b70f0a4125616c35a8381a411a977bc8269ff4410f2ad0ec60c33b4101264b26e6b26940f1a3bb0370f20540e0dc32b5ad91a740cdba46dc7b922c40b7ef18ec45157440a15b9a260137a040863a965a55e376406857df23138dc44045800000000000401a887293fd6f34,
  0x3ff0000000000000401a887293fd6f34403ec1d2284fc275405cc548f9a00a9c4077071aba964a4a40904877e2c2703940a4c1c67a70094140b82e5c638f597540ca006fef0f0de140da006fef0f0de140e85286e27f18f840f5616c35a8381a4101ba52856f154d410bd04e5040a1114114b1ad5831184a411d440bfdd673f84123b33d06098bef4129486172660dd5412ef703d7a1b82f41321c7e123117cf41343fc193fff0414135a5ab1ef6ef8f4136223743131d484135a5ab1ef6ef8f41343fc193fff04141321c7e123117cf412ef703d7a1b82f4129486172660dd54123b33d06098bef411d440bfdd673f84114b1ad5831184a410bd04e5040a1114101ba52856f154d40f5616c35a8381a40e85286e27f18f840da006fef0f0de140ca006fef0f0de140b82e5c638f597540a4c1c67a70094140904877e2c270394077071aba964a4a405cc548f9a00a9c403ec1d2284fc275401a887293fd6f343ff0000000000000]

/-- The coefficients for `2 ell = 45`: one number for each of the 46 values of `mp`, consisting of the doubles for the 46 values of `m`. -/
def wigner45 : List Nat := [
  0x3ff0000000000000401ad5336963eefb403f76da19a7630c405dc7cb59453c4c40781ffab1bd1867409145540bf0b7b740a64be909763d0f40ba507090ff684140ccacdd6fc152a640dd121f822b546740eb9437c632a46b40f898e2a72485d24104b39e6569240a41107dd27283d9514118eecb851e51484121ebec47f526e441288a45b2e5a2a94130069eba9640db4133fcddbe5b1da64137d3b597c2cd84413b2abd1b49a3b7413da43df597aae1413ef5a90a258fcf413ef5a90a258fcf413da43df597aae1413b2abd1b49a3b74137d3b597c2cd844133fcddbe5b1da64130069eba9640db41288a45b2e5a2a94121ebec47f526e44118eecb851e514841107dd27283d9514104b39e6569240a40f898e2a72485d240eb9437c632a46b40dd121f822b546740ccacdd6fc152a640ba507090ff684140a64be909763d0f409145540bf0b7b740781ffab1bd1867405dc7cb59453c4c403f76da19a7630c401ad5336963eefb3ff0000000000000,
  0x401ad5336963eefb4046000000000000406936031809547040874e90159a620440a26e62bfea86cc40b9beed563d350440d0341084498a9140e2a1fe50eea47f40f3c530dd7e833c41038053f34b4a684111fc9427ed5e10411f2ad0ec60c33b412975ab54a5556b4133aad10c56ee71413cce0df24a4000414409742da66c22414a85aade0a59194150b913d068cf5841541cbf4dc65af6415716643209c96341594fb1f8ffec52415a832147d58929415a898dddfc67b34159622ea7d00a26415732bd1edad80441543fc193fff0414150df21d5cc132b414ad0ff125dce9d41444e737d118e10413d440bfdd673f8413409742da66c22412a046fb18d6319411ff593b40d43774112841f8360f84e41042ac36bc623f940f48e602da1901240e38053f34b4a6840d1193f04c0718040bb7576c81c50bc40a3f14f67bcf9504089beed563d3504406cc548f9a00a9c404aa2edcf8bddbb4022c2fc595456a63ff0000000000000401ad5336963eefb,
  0x403f76da19a7630c4069360318095470408c38000000000040a977630414064a40c3a5d0ebee477440dac24d97aa681340f068c25143cd2641025f77c2e955964112f7b90c6343dc4122309c09c3a1ae41304c390a0ff06e413b68fe4f9cf3a94145b6497a36ed8941503f8717b70f0a415707938ca0eeb6415ef89f97f158bc4163ca77851e3c40416810eb4fbb8abd416bdf286fc554bd416ec39f7c193d9c4170306d4e7c73b44170402f70af606e416f1e25fc82f85e416c697098a41a6c4168bab77ef49ddf4164819b858c928f41602fca113ee7b341584c64e4b9290d415151410741df17414765e95d10d479413de738fca267544132070825699b7b412470f447201b2e4115b6497a36ed8941057f863467056240f3b8bd7e3167c740e0a178b878594f40c9849fc6dd2f7940b1900f6e35597540954247683ef71f4075f4c2f298f2ee405266da26a5b98e4026b733bfd8c6483ff00000000000004022c2fc595456a6403f76da19a7630c,
  0x405dc7cb59453c4c40874e90159a620440a977630414064a40c66c000000000040e0ddcb222e655740f661c9aca49b59410aba5704869f06411d1e1c4a184f7e412d39a50f51427e413b39db79e780874147ad2bf03dd96e41534e7e9b85d0cd415da16361bfb9ce41657563d0f95a19416d669c2c67d2b841731688d97a267e4177860bf62d5901417b8bb3f42f8b77417eacb2032b4a9f41804075aada3b274180644f2551a567417f7a3ee294c1c9417cc47e21228a87417903e81cd01f6a4174af30e9613e9441703fd1cbf370c441683a4903d2543f41611d66bc304f724156dee4ce7e5f2a414cd75a30c4d70e41411d07ef1e10db41330bf8825eb5f54123cc185f59a90241131dcc8120daf8410109064cfd9a1f40ebc844c4a2896740d47fe47fed8df340baf5fc5d77b4cf409eed1ee574faf8407df2a7b2d412bd40573290c38441a84029ec474a2612633ff00000000000004026b733bfd8c648404aa2edcf8bddbb405dc7cb59453c4c,
  0x40781ffab1bd186740a26e62bfea86cc40c3a5d0ebee477440e0ddcb222e655740f8b96000000000410ff22911312b7741228f14f52448d64133a819875511c041432a61d240e4b641515452c90bf8cc415d3a129cae0c094167167ca3e7750441712530c7760939417801738d3d7b0a417fc1ab030480fd4183e18ef4152545418797f16156fe31418a90a2383de842418c662ee65b711a418cd6b0193b0dce418bd28cd8439b3c41897fecd0f6ebe1418631d457ec04fa418255af6a05c154417cb9976ae38f4841754fee035ba77a416de8445fe4bf2c4163ce7c9b6878e44158b402106a9497414ced4b4165c0f8413fb017d577096141302a15189a035a411e8c3d9d3c4bb2410a8c2a7f2a60dd40f5075d9b99fada40de0220ccad398940c2fa9abbe0357140a4ccff6628daec4083168d8febacbb405bb9f1804f4e6d402ca2b9714180f63ff00000000000004029ec474a261263405266da26a5b98e406cc548f9a00a9c40781ffab1bd1867,
  0x409145540bf0b7b740b9beed563d350440dac24d97aa681340f661c9aca49b59410ff22911312b77412414b0000000004136af062e800fba414756c54114f8a741561629ebc4074a41635d8a4d3ad6df416fa3d83d8d2a8f417830183aae487941815d09cd7d9eac418779098537dc24418df14f06392aed41920d1cc1341c1b419499194fe2c19e419643b8e8dd829f4196cf5fa68c2263419627ec136cb58441946755c6ec49d74191cf4cf646ff85418d73e3324c2a7641870cc8111a377e41810d934df693044177d0f047aef0a0416f550da70f33a941635def267e66d441566df1459cc7db41483e7f7c0a4e694138584e0395ba044126945301494e01411333b4265bd3dc40fdaaa31d9967f340e48fde30e9a70540c926846891c63d40aa82cb05ca63c240873e9f9d7b8bff405ffefffbffdffe402efbdeb14f4ed93ff0000000000000402ca2b9714180f640573290c38441a84075f4c2f298f2ee4089beed563d3504409145540bf0b7b7,
  0x40a64be909763d0f40d0341084498a9140f068c25143cd26410aba5704869f0641228f14f52448d64136af062e800fba4148e44f800000004158db8d2578077d4166cf985ffd09ad4173601f228f2efc417ea2a411d3fcb84186a39ef0fbabad418f61ed7b4e96904194746718644ea441992050edb6d7b7419d2149b6c4683b419fe90cb5e7781c41a0870735d8887841a0323abb52c672419e088a81847f30419a574bec540df94195d7baef7d644d41911c475f6f428441894b31dafd83b841819cbf34754bd141770f55dd5feea0416c50983ff2ae0d4160406ebd72f74a41515fb083cba104414136e7aa8452d7412f6ddeee634ee9411a3c213e10725e4103d4eabdf9f3a540eacf3e7d45b30640cfdabfc77e38bc40b03c0b84c9e571408b615ea691e6ce4062015548b1ec7b403085d06e1f05173ff0000000000000402efbdeb14f4ed9405bb9f1804f4e6d407df2a7b2d412bd40954247683ef71f40a3f14f67bcf95040a64be909763d0f,
  0x40ba507090ff684140e2a1fe50eea47f41025f77c2e95596411d1e1c4a184f7e4133a819875511c0414756c54114f8a74158db8d2578077d4168123c0000000041756623d031427b41819700d55d8cc4418ae28b50025c0941932ebcaed394d94199a42d9e0d0c0c41a017fac8ad204641a30244bdf9952641a52806f545d12641a635c0faef1e8d41a6019dcdd1a26041a495c3fffb3ff741a22d5114bd8f23419e4a55a9bd74874197cbaf3175f2be41919acfa1bffef041887e5887fffe86417ffa7409ce109641738a016d4a3f6e41664729f0dd512b41579b3853a028fa41472219e37d24624134d65c4415dc7041211e9fd1a7b922410967a8a1e4956340f0cdc411cab10640d37896d292671e40b3477a8c186ff2408f71210facf8c94063e2b75c8f1a1940316f8334644df83ff0000000000000403085d06e1f0517405ffefffbffdffe4083168d8febacbb409eed1ee574faf840b1900f6e35597540bb7576c81c50bc40ba507090ff6841,
  0x40ccacdd6fc152a640f3c530dd7e833c4112f7b90c6343dc412d39a50f51427e41432a61d240e4b641561629ebc4074a4166cf985ffd09ad41756623d031427b418268e4a0000000418d41aefb7b9ecc4195965fad866c76419db48d644daba641a31e423aeabd8441a7136d09df7eea41aa2a6431f9e48b41abe88029d8983d41ac0635273da68141aa814fb0b6df4941a79cd5f31896f541a3ced597166049419f455941774e964197337eb8530d08419027bbc49aa1204185126f597bc7084179ad5aa9979d18416d230087788a86415eaa5f8323fa21414dc940f02ae41e413a891daa61746b41258309b67e6369410f6b8b3306d60640f466254ecb5a2040d7215b4f69815e40b655b74492fbd24091b11b1a6dcf8f4065a3ca6566bce240323f8fc68ae52b3ff000000000000040316f8334644df84062015548b1ec7b40873e9f9d7b8bff40a4ccff6628daec40baf5fc5d77b4cf40c9849fc6dd2f7940d1193f04c0718040ccacdd6fc152a6,
  0x40dd121f822b546741038053f34b4a684122309c09c3a1ae413b39db79e7808741515452c90bf8cc41635d8a4d3ad6df4173601f228f2efc41819700d55d8cc4418d41aefb7b9ecc4196720cc0000000419ff0c5b0287d0841a529731f3eb1e041aa3117d777777241ae596612ed09bf41b07d4cdd23b49541b0d2adaf48376541b020037e07ddde41ad0ca7c5f6185c41a895d81db2a69941a389d715ef31d2419d21bca35bbc21419457b79643fb25418a8f1a9bd2bfb241802a95c305d8db41724ad42270bbe34163290271835dfc41527c2cfe0bb4414140529cff22aebc412a2cb02fc5e3b44112dc8a8706d80e40f81af7fffeac2840dad41faed1692640b959c4568163a0409395432d5b7110406744a4b2972ea14032f9422c23c47d3ff000000000000040323f8fc68ae52b4063e2b75c8f1a19408b615ea691e6ce40aa82cb05ca63c240c2fa9abbe0357140d47fe47fed8df340e0a178b878594f40e38053f34b4a6840dd121f822b5467,
  0x40eb9437c632a46b4111fc9427ed5e1041304c390a0ff06e4147ad2bf03dd96e415d3a129cae0c09416fa3d83d8d2a8f417ea2a411d3fcb8418ae28b50025c094195965fad866c76419ff0c5b0287d0841a5e2660800000041abe21de1e2d60741b090ac59b5119741b2650ebd010a6141b31e9af341373241b29e9e9c71cb3b41b0ff4ef5eed6b941ad16fa1570adf041a752dd6884882a41a1818ac7e3283b419890ea7997d2174190150fd80ca745418398d1c317f08a4176272fe7abc2004167235c9d0919224156375e10777d7041437c26b669e9ff412ef85c79c15c4541161284362f1fb740fbd59ef5c884ce40de7dba0596e88e40bc47a35b5749c6409560a6e9fe07384068c554c259b45f40339f152d0f54703ff00000000000004032f9422c23c47d4065a3ca6566bce2408f71210facf8c940b03c0b84c9e57140c926846891c63d40de0220ccad398940ebc844c4a2896740f3b8bd7e3167c740f48e602da1901240eb9437c632a46b,
  0x40f898e2a72485d2411f2ad0ec60c33b413b68fe4f9cf3a941534e7e9b85d0cd4167167ca3e77504417830183aae48794186a39ef0fbabad41932ebcaed394d9419db48d644daba641a529731f3eb1e041abe21de1e2d60741b10d816000000041b36ade5b3b7e8d41b49fe8538441d441b4767eefbc698f41b2fa96abb8767d41b0758044115a7741aaaf98756c154241a435289ee7ffe8419c8cd12efa88844192c7b147d1214d4186f318e77f5e664179f7b3580c9e85416b18bb2439b08b4159f16a10d2c3c14146a51a07f109bb4131dff47f5c4c914119411137b0f43540ff7f5b056c699c40e105dcfd283ec340bf145554e02f7a40970f753d808ecd406a25e4636018e7403432f24fb01c7a3ff000000000000040339f152d0f5470406744a4b2972ea14091b11b1a6dcf8f40b3477a8c186ff240cfdabfc77e38bc40e48fde30e9a70540f5075d9b99fada410109064cfd9a1f41057f863467056241042ac36bc623f940f898e2a72485d2,
  0x4104b39e6569240a412975ab54a5556b4145b6497a36ed89415da16361bfb9ce41712530c776093941815d09cd7d9eac418f61ed7b4e96904199a42d9e0d0c0c41a31e423aeabd8441aa3117d777777241b090ac59b5119741b36ade5b3b7e8d41b526152800000041b57148265f3fe441b442e240165caf41b1da2efce9c73c41ad5593eeb81e0e41a675a4f8007ac541a001c0957c26a94195339b01385bbe418a08747363076b417d8a608859f21e416edaa52f5aaed7415d8339d4407ab84149affae5dee8cc41342dfcc59122b0411c5164a02088c8410180f59611955340e2b658d5cf5fa240c0daed75b9e1d840989e5ae8d6f5f2406b665a70daa2484034b65a49968d7e3ff0000000000000403432f24fb01c7a4068c554c259b45f409395432d5b711040b655b74492fbd240d37896d292671e40eacf3e7d45b30640fdaaa31d9967f3410a8c2a7f2a60dd41131dcc8120daf84115b6497a36ed894112841f8360f84e4104b39e6569240a,
  0x41107dd27283d9514133aad10c56ee7141503f8717b70f0a41657563d0f95a19417801738d3d7b0a418779098537dc244194746718644ea441a017fac8ad204641a7136d09df7eea41ae596612ed09bf41b2650ebd010a6141b49fe8538441d441b57148265f3fe441b4b4802000000041b29613bb3214d641af076b627cae8141a8139e84554aa141a15986f467a09a41972f3d86760414418ca952c6a2a546418056eafa41659c41711d614c6980c4416062da1ffb8397414c7f65163afb1d413652d7f45d1742411f2d51afb657aa4103240e51e629cf40e44839e27ce0bd40c2119a4826aa83409a0a740d6dfc3a406c86bbd609a25f40352a7fa9d2f8e93ff00000000000004034b65a49968d7e406a25e4636018e7409560a6e9fe073840b959c4568163a040d7215b4f69815e40f0cdc411cab1064103d4eabdf9f3a5411333b4265bd3dc411e8c3d9d3c4bb24123cc185f59a902412470f447201b2e411ff593b40d437741107dd27283d951,
  0x4118eecb851e5148413cce0df24a4000415707938ca0eeb6416d669c2c67d2b8417fc1ab030480fd418df14f06392aed41992050edb6d7b741a30244bdf9952641aa2a6431f9e48b41b07d4cdd23b49541b31e9af341373241b4767eefbc698f41b442e240165caf41b29613bb3214d641af9cba7a00000041a8ebf3b67b878a41a23342177823ca41989745e55df98f418eab95bf08e50041819a86fb2b8204417286fba9ab7e094161ca043b277f30414ef7867505beb541383c2671d7f96c4120e004037f85ce41049f2577d75d8940e5b424245ff89f40c32a3148b3954e409b5140ff135b1e406d870c2cd47a20403590590a698c4b3ff000000000000040352a7fa9d2f8e9406b665a70daa24840970f753d808ecd40bc47a35b5749c640dad41faed1692640f466254ecb5a20410967a8a1e49563411a3c213e10725e4126945301494e0141302a15189a035a41330bf8825eb5f54132070825699b7b412a046fb18d63194118eecb851e5148,
  0x4121ebec47f526e4414409742da66c22415ef89f97f158bc41731688d97a267e4183e18ef415254541920d1cc1341c1b419d2149b6c4683b41a52806f545d12641abe88029d8983d41b0d2adaf48376541b29e9e9c71cb3b41b2fa96abb8767d41b1da2efce9c73c41af076b627cae8141a8ebf3b67b878a41a27dcfa000000041995209a7d75f07418fee375f60681e41827d6932e4532d417397a50e7494c64162e6e99ff09ab941507fbfcb0513234139d957ddc2ab7f4121fb5e8401db794105e967f24d91d440e6f38c98eb7c1f40c4213292b4657b409c709d8824490e406e674e2246b40e4035e8add236a58e3ff0000000000000403590590a698c4b406c86bbd609a25f40989e5ae8d6f5f240bf145554e02f7a40de7dba0596e88e40f81af7fffeac28410f6b8b3306d60641211e9fd1a7b922412f6ddeee634ee94138584e0395ba04413fb017d577096141411d07ef1e10db413de738fca26754413409742da66c224121ebec47f526e4,
  0x41288a45b2e5a2a9414a85aade0a59194163ca77851e3c404177860bf62d5901418797f16156fe31419499194fe2c19e419fe90cb5e7781c41a635c0faef1e8d41ac0635273da68141b020037e07ddde41b0ff4ef5eed6b941b0758044115a7741ad5593eeb81e0e41a8139e84554aa141a23342177823ca41995209a7d75f0741902e15ac0000004182f24d896f676a417441311f49cac64163ac7ffa54ee624151414d79b58449413b1c54003986044122e09fcc23331c4106fb31d71fb8a840e800cbe3ddef1140c4f39e39866521409d66ba0e29e5a4406f2783b829c3364036341f58bada133ff00000000000004035e8add236a58e406d870c2cd47a20409a0a740d6dfc3a40c0daed75b9e1d840e105dcfd283ec340fbd59ef5c884ce4112dc8a8706d80e41258309b67e63694134d65c4415dc70414136e7aa8452d741483e7f7c0a4e69414ced4b4165c0f8414cd75a30c4d70e414765e95d10d479413d440bfdd673f841288a45b2e5a2a9,
  0x4130069eba9640db4150b913d068cf58416810eb4fbb8abd417b8bb3f42f8b77418a90a2383de842419643b8e8dd829f41a0870735d8887841a6019dcdd1a26041aa814fb0b6df4941ad0ca7c5f6185c41ad16fa1570adf041aaaf98756c154241a675a4f8007ac541a15986f467a09a41989745e55df98f418fee375f60681e4182f24d896f676a41747ab840000000416411a500ee0f604151b8a6a54b4ec6413bfa07eee4e83441238939fe34706b4107ce366958750540e8d72da593f48b40c59ef44aea1940409e32163051ed77406fc7ae70dd94344036732f8d0e2f763ff00000000000004036341f58bada13406e674e2246b40e409b5140ff135b1e40c2119a4826aa8340e2b658d5cf5fa240ff7f5b056c699c41161284362f1fb7412a2cb02fc5e3b4413a891daa61746b41472219e37d246241515fb083cba10441566df1459cc7db4158b402106a94974156dee4ce7e5f2a415151410741df1741444e737d118e104130069eba9640db,
  0x4133fcddbe5b1da641541cbf4dc65af6416bdf286fc554bd417eacb2032b4a9f418c662ee65b711a4196cf5fa68c226341a0323abb52c67241a495c3fffb3ff741a79cd5f31896f541a895d81db2a69941a752dd6884882a41a435289ee7ffe841a001c0957c26a941972f3d86760414418eab95bf08e50041827d6932e4532d417441311f49cac6416411a500ee0f604151e0fa40000000413c6ad368c938f74123f05aff4ad24641085da01a63b84340e972fcbc9c2e3f40c62134d087cf2b409ed17c96c0e910407023e7b692c6f44036a645d9411b843ff00000000000004036732f8d0e2f76406f2783b829c336409c709d8824490e40c32a3148b3954e40e44839e27ce0bd410180f5961195534119411137b0f435412ef85c79c15c454140529cff22aebc414dc940f02ae41e41579b3853a028fa4160406ebd72f74a41635def267e66d44163ce7c9b6878e441611d66bc304f7241584c64e4b9290d414ad0ff125dce9d4133fcddbe5b1da6,
  0x4137d3b597c2cd84415716643209c963416ec39f7c193d9c41804075aada3b27418cd6b0193b0dce419627ec136cb584419e088a81847f3041a22d5114bd8f2341a3ced59716604941a389d715ef31d241a1818ac7e3283b419c8cd12efa88844195339b01385bbe418ca952c6a2a54641819a86fb2b8204417397a50e7494c64163ac7ffa54ee624151b8a6a54b4ec6413c6ad368c938f741241310000000004108a6288ad2e46340e9d18ca1a7e49e40c678dfd0eb66cb409f43ffbe7f2ad8407053f3c049cc484036cdb2bbb212eb3ff00000000000004036a645d9411b84406fc7ae70dd9434409d66ba0e29e5a440c4213292b4657b40e5b424245ff89f4103240e51e629cf411c5164a02088c84131dff47f5c4c9141437c26b669e9ff41527c2cfe0bb441415eaa5f8323fa2141664729f0dd512b416c50983ff2ae0d416f550da70f33a9416de8445fe4bf2c41683a4903d2543f41602fca113ee7b34150df21d5cc132b4137d3b597c2cd84,
  0x413b2abd1b49a3b741594fb1f8ffec524170306d4e7c73b44180644f2551a567418bd28cd8439b3c41946755c6ec49d7419a574bec540df9419e4a55a9bd7487419f455941774e96419d21bca35bbc21419890ea7997d2174192c7b147d1214d418a08747363076b418056eafa41659c417286fba9ab7e094162e6e99ff09ab94151414d79b58449413bfa07eee4e8344123f05aff4ad2464108a6288ad2e46340e9f1400000000040c6a4f5502456f4409f88f79cce04bb407073fb9fb966a44036e9b2675a66263ff00000000000004036cdb2bbb212eb407023e7b692c6f4409e32163051ed7740c4f39e3986652140e6f38c98eb7c1f41049f2577d75d89411f2d51afb657aa41342dfcc59122b04146a51a07f109bb4156375e10777d704163290271835dfc416d230087788a8641738a016d4a3f6e41770f55dd5feea04177d0f047aef0a041754fee035ba77a41703fd1cbf370c44164819b858c928f41543fc193fff041413b2abd1b49a3b7,
  0x413da43df597aae1415a832147d589294170402f70af606e417f7a3ee294c1c941897fecd0f6ebe14191cf4cf646ff854195d7baef7d644d4197cbaf3175f2be4197337eb8530d08419457b79643fb254190150fd80ca7454186f318e77f5e66417d8a608859f21e41711d614c6980c44161ca043b277f3041507fbfcb051323413b1c540039860441238939fe34706b41085da01a63b84340e9d18ca1a7e49e40c6a4f5502456f4409fa00000000000407083ff83ff062c4036fa6ea162d0f03ff00000000000004036e9b2675a6626407053f3c049cc48409ed17c96c0e91040c59ef44aea194040e800cbe3ddef114105e967f24d91d44120e004037f85ce413652d7f45d17424149affae5dee8cc4159f16a10d2c3c14167235c9d09192241724ad42270bbe34179ad5aa9979d18417ffa7409ce109641819cbf34754bd141810d934df69304417cb9976ae38f484174af30e9613e944168bab77ef49ddf415732bd1edad804413da43df597aae1,
  0x413ef5a90a258fcf415a898dddfc67b3416f1e25fc82f85e417cc47e21228a87418631d457ec04fa418d73e3324c2a7641911c475f6f428441919acfa1bffef0419027bbc49aa120418a8f1a9bd2bfb2418398d1c317f08a4179f7b3580c9e85416edaa52f5aaed7416062da1ffb8397414ef7867505beb54139d957ddc2ab7f4122e09fcc23331c4107ce366958750540e972fcbc9c2e3f40c678dfd0eb66cb409f88f79cce04bb407083ff83ff062c40370000000000003ff00000000000004036fa6ea162d0f0407073fb9fb966a4409f43ffbe7f2ad840c62134d087cf2b40e8d72da593f48b4106fb31d71fb8a84121fb5e8401db7941383c2671d7f96c414c7f65163afb1d415d8339d4407ab8416b18bb2439b08b4176272fe7abc20041802a95c305d8db4185126f597bc70841887e5887fffe8641894b31dafd83b841870cc8111a377e418255af6a05c154417903e81cd01f6a416c697098a41a6c4159622ea7d00a26413ef5a90a258fcf,
  0x413ef5a90a258fcf4159622ea7d00a26416c697098a41a6c417903e81cd01f6a418255af6a05c15441870cc8111a377e41894b31dafd83b841887e5887fffe864185126f597bc70841802a95c305d8db4176272fe7abc200416b18bb2439b08b415d8339d4407ab8414c7f65163afb1d41383c2671d7f96c4121fb5e8401db794106fb31d71fb8a840e8d72da593f48b40c62134d087cf2b409f43ffbe7f2ad8407073fb9fb966a44036fa6ea162d0f03ff00000000000004037000000000000407083ff83ff062c409f88f79cce04bb40c678dfd0eb66cb40e972fcbc9c2e3f4107ce36695875054122e09fcc23331c4139d957ddc2ab7f414ef7867505beb5416062da1ffb8397416edaa52f5aaed74179f7b3580c9e85418398d1c317f08a418a8f1a9bd2bfb2419027bbc49aa12041919acfa1bffef041911c475f6f4284418d73e3324c2a76418631d457ec04fa417cc47e21228a87416f1e25fc82f85e415a898dddfc67b3413ef5a90a258fcf,
  0x413da43df597aae1415732bd1edad8044168bab77ef49ddf4174af30e9613e94417cb9976ae38f4841810d934df6930441819cbf34754bd1417ffa7409ce10964179ad5aa9979d1841724ad42270bbe34167235c9d0919224159f16a10d2c3c14149affae5dee8cc413652d7f45d17424120e004037f85ce4105e967f24d91d440e800cbe3ddef1140c59ef44aea1940409ed17c96c0e910407053f3c049cc484036e9b2675a66263ff00000000000004036fa6ea162d0f0407083ff83ff062c409fa0000000000040c6a4f5502456f440e9d18ca1a7e49e41085da01a63b84341238939fe34706b413b1c540039860441507fbfcb0513234161ca043b277f3041711d614c6980c4417d8a608859f21e4186f318e77f5e664190150fd80ca745419457b79643fb254197337eb8530d084197cbaf3175f2be4195d7baef7d644d4191cf4cf646ff8541897fecd0f6ebe1417f7a3ee294c1c94170402f70af606e415a832147d58929413da43df597aae1,
  0x413b2abd1b49a3b741543fc193fff0414164819b858c928f41703fd1cbf370c441754fee035ba77a4177d0f047aef0a041770f55dd5feea041738a016d4a3f6e416d230087788a864163290271835dfc4156375e10777d704146a51a07f109bb41342dfcc59122b0411f2d51afb657aa41049f2577d75d8940e6f38c98eb7c1f40c4f39e39866521409e32163051ed77407023e7b692c6f44036cdb2bbb212eb3ff00000000000004036e9b2675a6626407073fb9fb966a4409f88f79cce04bb40c6a4f5502456f440e9f140000000004108a6288ad2e4634123f05aff4ad246413bfa07eee4e8344151414d79b584494162e6e99ff09ab9417286fba9ab7e09418056eafa41659c418a08747363076b4192c7b147d1214d419890ea7997d217419d21bca35bbc21419f455941774e96419e4a55a9bd7487419a574bec540df941946755c6ec49d7418bd28cd8439b3c4180644f2551a5674170306d4e7c73b441594fb1f8ffec52413b2abd1b49a3b7,
  0x4137d3b597c2cd844150df21d5cc132b41602fca113ee7b341683a4903d2543f416de8445fe4bf2c416f550da70f33a9416c50983ff2ae0d41664729f0dd512b415eaa5f8323fa2141527c2cfe0bb44141437c26b669e9ff4131dff47f5c4c91411c5164a02088c84103240e51e629cf40e5b424245ff89f40c4213292b4657b409d66ba0e29e5a4406fc7ae70dd94344036a645d9411b843ff00000000000004036cdb2bbb212eb407053f3c049cc48409f43ffbe7f2ad840c678dfd0eb66cb40e9d18ca1a7e49e4108a6288ad2e4634124131000000000413c6ad368c938f74151b8a6a54b4ec64163ac7ffa54ee62417397a50e7494c641819a86fb2b8204418ca952c6a2a5464195339b01385bbe419c8cd12efa888441a1818ac7e3283b41a389d715ef31d241a3ced59716604941a22d5114bd8f23419e088a81847f30419627ec136cb584418cd6b0193b0dce41804075aada3b27416ec39f7c193d9c415716643209c9634137d3b597c2cd84,
  0x4133fcddbe5b1da6414ad0ff125dce9d41584c64e4b9290d41611d66bc304f724163ce7c9b6878e441635def267e66d44160406ebd72f74a41579b3853a028fa414dc940f02ae41e4140529cff22aebc412ef85c79c15c454119411137b0f435410180f59611955340e44839e27ce0bd40c32a3148b3954e409c709d8824490e406f2783b829c3364036732f8d0e2f763ff00000000000004036a645d9411b84407023e7b692c6f4409ed17c96c0e91040c62134d087cf2b40e972fcbc9c2e3f41085da01a63b8434123f05aff4ad246413c6ad368c938f74151e0fa40000000416411a500ee0f60417441311f49cac641827d6932e4532d418eab95bf08e50041972f3d8676041441a001c0957c26a941a435289ee7ffe841a752dd6884882a41a895d81db2a69941a79cd5f31896f541a495c3fffb3ff741a0323abb52c6724196cf5fa68c2263418c662ee65b711a417eacb2032b4a9f416bdf286fc554bd41541cbf4dc65af64133fcddbe5b1da6,
  0x4130069eba9640db41444e737d118e10415151410741df174156dee4ce7e5f2a4158b402106a949741566df1459cc7db41515fb083cba10441472219e37d2462413a891daa61746b412a2cb02fc5e3b441161284362f1fb740ff7f5b056c699c40e2b658d5cf5fa240c2119a4826aa83409b5140ff135b1e406e674e2246b40e4036341f58bada133ff00000000000004036732f8d0e2f76406fc7ae70dd9434409e32163051ed7740c59ef44aea194040e8d72da593f48b4107ce366958750541238939fe34706b413bfa07eee4e8344151b8a6a54b4ec6416411a500ee0f6041747ab8400000004182f24d896f676a418fee375f60681e41989745e55df98f41a15986f467a09a41a675a4f8007ac541aaaf98756c154241ad16fa1570adf041ad0ca7c5f6185c41aa814fb0b6df4941a6019dcdd1a26041a0870735d88878419643b8e8dd829f418a90a2383de842417b8bb3f42f8b77416810eb4fbb8abd4150b913d068cf584130069eba9640db,
  0x41288a45b2e5a2a9413d440bfdd673f8414765e95d10d479414cd75a30c4d70e414ced4b4165c0f841483e7f7c0a4e69414136e7aa8452d74134d65c4415dc7041258309b67e63694112dc8a8706d80e40fbd59ef5c884ce40e105dcfd283ec340c0daed75b9e1d8409a0a740d6dfc3a406d870c2cd47a204035e8add236a58e3ff00000000000004036341f58bada13406f2783b829c336409d66ba0e29e5a440c4f39e3986652140e800cbe3ddef114106fb31d71fb8a84122e09fcc23331c413b1c54003986044151414d79b584494163ac7ffa54ee62417441311f49cac64182f24d896f676a41902e15ac00000041995209a7d75f0741a23342177823ca41a8139e84554aa141ad5593eeb81e0e41b0758044115a7741b0ff4ef5eed6b941b020037e07ddde41ac0635273da68141a635c0faef1e8d419fe90cb5e7781c419499194fe2c19e418797f16156fe314177860bf62d59014163ca77851e3c40414a85aade0a591941288a45b2e5a2a9,
  0x4121ebec47f526e4413409742da66c22413de738fca2675441411d07ef1e10db413fb017d57709614138584e0395ba04412f6ddeee634ee941211e9fd1a7b922410f6b8b3306d60640f81af7fffeac2840de7dba0596e88e40bf145554e02f7a40989e5ae8d6f5f2406c86bbd609a25f403590590a698c4b3ff00000000000004035e8add236a58e406e674e2246b40e409c709d8824490e40c4213292b4657b40e6f38c98eb7c1f4105e967f24d91d44121fb5e8401db794139d957ddc2ab7f41507fbfcb0513234162e6e99ff09ab9417397a50e7494c641827d6932e4532d418fee375f60681e41995209a7d75f0741a27dcfa000000041a8ebf3b67b878a41af076b627cae8141b1da2efce9c73c41b2fa96abb8767d41b29e9e9c71cb3b41b0d2adaf48376541abe88029d8983d41a52806f545d126419d2149b6c4683b41920d1cc1341c1b4183e18ef415254541731688d97a267e415ef89f97f158bc414409742da66c224121ebec47f526e4,
  0x4118eecb851e5148412a046fb18d63194132070825699b7b41330bf8825eb5f541302a15189a035a4126945301494e01411a3c213e10725e410967a8a1e4956340f466254ecb5a2040dad41faed1692640bc47a35b5749c640970f753d808ecd406b665a70daa24840352a7fa9d2f8e93ff0000000000000403590590a698c4b406d870c2cd47a20409b5140ff135b1e40c32a3148b3954e40e5b424245ff89f41049f2577d75d894120e004037f85ce41383c2671d7f96c414ef7867505beb54161ca043b277f30417286fba9ab7e0941819a86fb2b8204418eab95bf08e50041989745e55df98f41a23342177823ca41a8ebf3b67b878a41af9cba7a00000041b29613bb3214d641b442e240165caf41b4767eefbc698f41b31e9af341373241b07d4cdd23b49541aa2a6431f9e48b41a30244bdf9952641992050edb6d7b7418df14f06392aed417fc1ab030480fd416d669c2c67d2b8415707938ca0eeb6413cce0df24a40004118eecb851e5148,
  0x41107dd27283d951411ff593b40d4377412470f447201b2e4123cc185f59a902411e8c3d9d3c4bb2411333b4265bd3dc4103d4eabdf9f3a540f0cdc411cab10640d7215b4f69815e40b959c4568163a0409560a6e9fe0738406a25e4636018e74034b65a49968d7e3ff000000000000040352a7fa9d2f8e9406c86bbd609a25f409a0a740d6dfc3a40c2119a4826aa8340e44839e27ce0bd4103240e51e629cf411f2d51afb657aa413652d7f45d1742414c7f65163afb1d416062da1ffb839741711d614c6980c4418056eafa41659c418ca952c6a2a54641972f3d8676041441a15986f467a09a41a8139e84554aa141af076b627cae8141b29613bb3214d641b4b4802000000041b57148265f3fe441b49fe8538441d441b2650ebd010a6141ae596612ed09bf41a7136d09df7eea41a017fac8ad20464194746718644ea4418779098537dc24417801738d3d7b0a41657563d0f95a1941503f8717b70f0a4133aad10c56ee7141107dd27283d951,
  0x4104b39e6569240a4112841f8360f84e4115b6497a36ed8941131dcc8120daf8410a8c2a7f2a60dd40fdaaa31d9967f340eacf3e7d45b30640d37896d292671e40b655b74492fbd2409395432d5b71104068c554c259b45f403432f24fb01c7a3ff00000000000004034b65a49968d7e406b665a70daa24840989e5ae8d6f5f240c0daed75b9e1d840e2b658d5cf5fa2410180f596119553411c5164a02088c841342dfcc59122b04149affae5dee8cc415d8339d4407ab8416edaa52f5aaed7417d8a608859f21e418a08747363076b4195339b01385bbe41a001c0957c26a941a675a4f8007ac541ad5593eeb81e0e41b1da2efce9c73c41b442e240165caf41b57148265f3fe441b526152800000041b36ade5b3b7e8d41b090ac59b5119741aa3117d777777241a31e423aeabd844199a42d9e0d0c0c418f61ed7b4e969041815d09cd7d9eac41712530c7760939415da16361bfb9ce4145b6497a36ed89412975ab54a5556b4104b39e6569240a,
  0x40f898e2a72485d241042ac36bc623f941057f8634670562410109064cfd9a1f40f5075d9b99fada40e48fde30e9a70540cfdabfc77e38bc40b3477a8c186ff24091b11b1a6dcf8f406744a4b2972ea140339f152d0f54703ff0000000000000403432f24fb01c7a406a25e4636018e740970f753d808ecd40bf145554e02f7a40e105dcfd283ec340ff7f5b056c699c4119411137b0f4354131dff47f5c4c914146a51a07f109bb4159f16a10d2c3c1416b18bb2439b08b4179f7b3580c9e854186f318e77f5e664192c7b147d1214d419c8cd12efa888441a435289ee7ffe841aaaf98756c154241b0758044115a7741b2fa96abb8767d41b4767eefbc698f41b49fe8538441d441b36ade5b3b7e8d41b10d816000000041abe21de1e2d60741a529731f3eb1e0419db48d644daba641932ebcaed394d94186a39ef0fbabad417830183aae48794167167ca3e7750441534e7e9b85d0cd413b68fe4f9cf3a9411f2ad0ec60c33b40f898e2a72485d2,
  0x40eb9437c632a46b40f48e602da1901240f3b8bd7e3167c740ebc844c4a2896740de0220ccad398940c926846891c63d40b03c0b84c9e571408f71210facf8c94065a3ca6566bce24032f9422c23c47d3ff000000000000040339f152d0f54704068c554c259b45f409560a6e9fe073840bc47a35b5749c640de7dba0596e88e40fbd59ef5c884ce41161284362f1fb7412ef85c79c15c4541437c26b669e9ff4156375e10777d704167235c9d0919224176272fe7abc200418398d1c317f08a4190150fd80ca745419890ea7997d21741a1818ac7e3283b41a752dd6884882a41ad16fa1570adf041b0ff4ef5eed6b941b29e9e9c71cb3b41b31e9af341373241b2650ebd010a6141b090ac59b5119741abe21de1e2d60741a5e26608000000419ff0c5b0287d084195965fad866c76418ae28b50025c09417ea2a411d3fcb8416fa3d83d8d2a8f415d3a129cae0c094147ad2bf03dd96e41304c390a0ff06e4111fc9427ed5e1040eb9437c632a46b,
  0x40dd121f822b546740e38053f34b4a6840e0a178b878594f40d47fe47fed8df340c2fa9abbe0357140aa82cb05ca63c2408b615ea691e6ce4063e2b75c8f1a1940323f8fc68ae52b3ff00000000000004032f9422c23c47d406744a4b2972ea1409395432d5b711040b959c4568163a040dad41faed1692640f81af7fffeac284112dc8a8706d80e412a2cb02fc5e3b44140529cff22aebc41527c2cfe0bb4414163290271835dfc41724ad42270bbe341802a95c305d8db418a8f1a9bd2bfb2419457b79643fb25419d21bca35bbc2141a389d715ef31d241a895d81db2a69941ad0ca7c5f6185c41b020037e07ddde41b0d2adaf48376541b07d4cdd23b49541ae596612ed09bf41aa3117d777777241a529731f3eb1e0419ff0c5b0287d084196720cc0000000418d41aefb7b9ecc41819700d55d8cc44173601f228f2efc41635d8a4d3ad6df41515452c90bf8cc413b39db79e780874122309c09c3a1ae41038053f34b4a6840dd121f822b5467,
  0x40ccacdd6fc152a640d1193f04c0718040c9849fc6dd2f7940baf5fc5d77b4cf40a4ccff6628daec40873e9f9d7b8bff4062015548b1ec7b40316f8334644df83ff000000000000040323f8fc68ae52b4065a3ca6566bce24091b11b1a6dcf8f40b655b74492fbd240d7215b4f69815e40f466254ecb5a20410f6b8b3306d60641258309b67e6369413a891daa61746b414dc940f02ae41e415eaa5f8323fa21416d230087788a864179ad5aa9979d184185126f597bc708419027bbc49aa1204197337eb8530d08419f455941774e9641a3ced59716604941a79cd5f31896f541aa814fb0b6df4941ac0635273da68141abe88029d8983d41aa2a6431f9e48b41a7136d09df7eea41a31e423aeabd84419db48d644daba64195965fad866c76418d41aefb7b9ecc418268e4a000000041756623d031427b4166cf985ffd09ad41561629ebc4074a41432a61d240e4b6412d39a50f51427e4112f7b90c6343dc40f3c530dd7e833c40ccacdd6fc152a6,
  0x40ba507090ff684140bb7576c81c50bc40b1900f6e355975409eed1ee574faf84083168d8febacbb405ffefffbffdffe403085d06e1f05173ff000000000000040316f8334644df84063e2b75c8f1a19408f71210facf8c940b3477a8c186ff240d37896d292671e40f0cdc411cab106410967a8a1e4956341211e9fd1a7b9224134d65c4415dc7041472219e37d246241579b3853a028fa41664729f0dd512b41738a016d4a3f6e417ffa7409ce109641887e5887fffe8641919acfa1bffef04197cbaf3175f2be419e4a55a9bd748741a22d5114bd8f2341a495c3fffb3ff741a6019dcdd1a26041a635c0faef1e8d41a52806f545d12641a30244bdf9952641a017fac8ad20464199a42d9e0d0c0c41932ebcaed394d9418ae28b50025c0941819700d55d8cc441756623d031427b4168123c000000004158db8d2578077d414756c54114f8a74133a819875511c0411d1e1c4a184f7e41025f77c2e9559640e2a1fe50eea47f40ba507090ff6841,
  0x40a64be909763d0f40a3f14f67bcf95040954247683ef71f407df2a7b2d412bd405bb9f1804f4e6d402efbdeb14f4ed93ff0000000000000403085d06e1f05174062015548b1ec7b408b615ea691e6ce40b03c0b84c9e57140cfdabfc77e38bc40eacf3e7d45b3064103d4eabdf9f3a5411a3c213e10725e412f6ddeee634ee9414136e7aa8452d741515fb083cba1044160406ebd72f74a416c50983ff2ae0d41770f55dd5feea041819cbf34754bd141894b31dafd83b841911c475f6f42844195d7baef7d644d419a574bec540df9419e088a81847f3041a0323abb52c67241a0870735d88878419fe90cb5e7781c419d2149b6c4683b41992050edb6d7b74194746718644ea4418f61ed7b4e96904186a39ef0fbabad417ea2a411d3fcb84173601f228f2efc4166cf985ffd09ad4158db8d2578077d4148e44f800000004136af062e800fba41228f14f52448d6410aba5704869f0640f068c25143cd2640d0341084498a9140a64be909763d0f,
  0x409145540bf0b7b74089beed563d35044075f4c2f298f2ee40573290c38441a8402ca2b9714180f63ff0000000000000402efbdeb14f4ed9405ffefffbffdffe40873e9f9d7b8bff40aa82cb05ca63c240c926846891c63d40e48fde30e9a70540fdaaa31d9967f3411333b4265bd3dc4126945301494e014138584e0395ba0441483e7f7c0a4e6941566df1459cc7db41635def267e66d4416f550da70f33a94177d0f047aef0a041810d934df6930441870cc8111a377e418d73e3324c2a764191cf4cf646ff8541946755c6ec49d7419627ec136cb5844196cf5fa68c2263419643b8e8dd829f419499194fe2c19e41920d1cc1341c1b418df14f06392aed418779098537dc2441815d09cd7d9eac417830183aae4879416fa3d83d8d2a8f41635d8a4d3ad6df41561629ebc4074a414756c54114f8a74136af062e800fba412414b000000000410ff22911312b7740f661c9aca49b5940dac24d97aa681340b9beed563d3504409145540bf0b7b7,
  0x40781ffab1bd1867406cc548f9a00a9c405266da26a5b98e4029ec474a2612633ff0000000000000402ca2b9714180f6405bb9f1804f4e6d4083168d8febacbb40a4ccff6628daec40c2fa9abbe0357140de0220ccad398940f5075d9b99fada410a8c2a7f2a60dd411e8c3d9d3c4bb241302a15189a035a413fb017d5770961414ced4b4165c0f84158b402106a94974163ce7c9b6878e4416de8445fe4bf2c41754fee035ba77a417cb9976ae38f48418255af6a05c154418631d457ec04fa41897fecd0f6ebe1418bd28cd8439b3c418cd6b0193b0dce418c662ee65b711a418a90a2383de842418797f16156fe314183e18ef4152545417fc1ab030480fd417801738d3d7b0a41712530c77609394167167ca3e77504415d3a129cae0c0941515452c90bf8cc41432a61d240e4b64133a819875511c041228f14f52448d6410ff22911312b7740f8b9600000000040e0ddcb222e655740c3a5d0ebee477440a26e62bfea86cc40781ffab1bd1867,
  0x405dc7cb59453c4c404aa2edcf8bddbb4026b733bfd8c6483ff00000000000004029ec474a26126340573290c38441a8407df2a7b2d412bd409eed1ee574faf840baf5fc5d77b4cf40d47fe47fed8df340ebc844c4a28967410109064cfd9a1f41131dcc8120daf84123cc185f59a90241330bf8825eb5f541411d07ef1e10db414cd75a30c4d70e4156dee4ce7e5f2a41611d66bc304f7241683a4903d2543f41703fd1cbf370c44174af30e9613e94417903e81cd01f6a417cc47e21228a87417f7a3ee294c1c94180644f2551a56741804075aada3b27417eacb2032b4a9f417b8bb3f42f8b774177860bf62d590141731688d97a267e416d669c2c67d2b841657563d0f95a19415da16361bfb9ce41534e7e9b85d0cd4147ad2bf03dd96e413b39db79e78087412d39a50f51427e411d1e1c4a184f7e410aba5704869f0640f661c9aca49b5940e0ddcb222e655740c66c000000000040a977630414064a40874e90159a6204405dc7cb59453c4c,
  0x403f76da19a7630c4022c2fc595456a63ff00000000000004026b733bfd8c648405266da26a5b98e4075f4c2f298f2ee40954247683ef71f40b1900f6e35597540c9849fc6dd2f7940e0a178b878594f40f3b8bd7e3167c741057f86346705624115b6497a36ed89412470f447201b2e4132070825699b7b413de738fca26754414765e95d10d479415151410741df1741584c64e4b9290d41602fca113ee7b34164819b858c928f4168bab77ef49ddf416c697098a41a6c416f1e25fc82f85e4170402f70af606e4170306d4e7c73b4416ec39f7c193d9c416bdf286fc554bd416810eb4fbb8abd4163ca77851e3c40415ef89f97f158bc415707938ca0eeb641503f8717b70f0a4145b6497a36ed89413b68fe4f9cf3a941304c390a0ff06e4122309c09c3a1ae4112f7b90c6343dc41025f77c2e9559640f068c25143cd2640dac24d97aa681340c3a5d0ebee477440a977630414064a408c3800000000004069360318095470403f76da19a7630c,
  0x401ad5336963eefb3ff00000000000004022c2fc595456a6404aa2edcf8bddbb406cc548f9a00a9c4089beed563d350440a3f14f67bcf95040bb7576c81c50bc40d1193f04c0718040e38053f34b4a6840f48e602da1901241042ac36bc623f94112841f8360f84e411ff593b40d4377412a046fb18d6319413409742da66c22413d440bfdd673f841444e737d118e10414ad0ff125dce9d4150df21d5cc132b41543fc193fff041415732bd1edad8044159622ea7d00a26415a898dddfc67b3415a832147d5892941594fb1f8ffec52415716643209c96341541cbf4dc65af64150b913d068cf58414a85aade0a5919414409742da66c22413cce0df24a40004133aad10c56ee71412975ab54a5556b411f2ad0ec60c33b4111fc9427ed5e1041038053f34b4a6840f3c530dd7e833c40e2a1fe50eea47f40d0341084498a9140b9beed563d350440a26e62bfea86cc40874e90159a620440693603180954704046000000000000401ad5336963eefb,
  0x3ff0000000000000401ad5336963eefb403f76da19a7630c405dc7cb59453c4c40781ffab1bd1867409145540bf0b7b740a64be909763d0f40ba507090ff684140ccacdd6fc152a640dd121f822b546740eb9437c632a46b40f898e2a72485d24104b39e6569240a41107dd27283d9514118eecb851e51484121ebec47f526e441288a45b2e5a2a94130069eba9640db4133fcddbe5b1da64137d3b597c2cd84413b2abd1b49a3b7413da43df597aae1413ef5a90a258fcf413ef5a90a258fcf413da43df597aae1413b2abd1b49a3b74137d3b597c2cd844133fcddbe5b1da64130069eba9640db41288a45b2e5a2a94121ebec47f526e44118eecb851e514841107dd27283d9514104b39e6569240a40f898e2a72485d240eb9437c632a46b40dd121f822b546740ccacdd6fc152a640ba507090ff684140a64be909763d0f409145540bf0b7b740781ffab1bd1867405dc7cb59453c4c403f76da19a7630c401ad5336963eefb3ff0000000000000]

/-- The coefficients for `2 ell = 46`: one number for each of the 47 values of `mp`, consisting of the doubles for the 47 values of `m`. -/
def wigner46 : List Nat := [
  0x3ff0000000000000401b211b1c70d023404015f0f4a885a2405ecd41d33eeffd40793f62d811dc8240924b2b0c6e109340a7e90d4760baf440bc940e6aa40b5d40cf8cb51d8a8b1240e035039953b32040ef2cc9b316cc2c40fc32e4ee531c204108144df429ee2e41137880cb645d89411de4b3ce51ba784125d4be5da3a97a412e6333aebc0ec541342f0861a9d5b141399e7dd2ba18af413f19b4eab8570a414211556844f86841441a989cd4948841456e4a385b87634145e449c449546941456e4a385b876341441a989cd49488414211556844f868413f19b4eab8570a41399e7dd2ba18af41342f0861a9d5b1412e6333aebc0ec54125d4be5da3a97a411de4b3ce51ba7841137880cb645d894108144df429ee2e40fc32e4ee531c2040ef2cc9b316cc2c40e035039953b32040cf8cb51d8a8b1240bc940e6aa40b5d40a7e90d4760baf440924b2b0c6e109340793f62d811dc82405ecd41d33eeffd404015f0f4a885a2401b211b1c70d0233ff0000000000000,
  0x401b211b1c70d0234046800000000000406a16bafcb12e2d408869120133fbab40a38b1d72956f9240bba5941fdfca3240d1a07fd29d6db040e48aa1ae4027a640f6188430782b5541061a955b7a5a604114af29d4a5fb504122309c09c3a1ae412e2d749a1447fe4137af215d1159e34141a15150079bc54148f21e567b38cd4150cd2d8375d476415593523de33ca9415a70fa4b31d108415ef3c13f80b3a6416150cb2587570a416286a6b97ecacd4162f574b676fbad41628f4435c376674161610051ed115f415f1fa77512736d415aa3aeafe3e85f4155c7f9c4640ca44150ff7c54e92af341494b9e36e71afb4141ebec47f526e44138241d5bf31e32412eda4e4c0d50994122a903038208c241154d433f95d8774106de05fda57acd40f6fb83cfd4de5940e581a613d0fdfc40d29b61d7f967dc40bd7edb07558e4340a526ffc989b6d3408af8f46a0609f2406dc7cb59453c4c404b3fb4d7ab24d74022f9422c23c47d3ff0000000000000401b211b1c70d023,
  0x404015f0f4a885a2406a16bafcb12e2d408d90000000000040ab047413c12faa40c51d97073877ff40dd246c43d8db5540f21dad57b0119c410491ee1ea5197641158b4e0d93ee334124f8341e564f94413313e4ad6c6f6341404c390a0ff06e414a3e427b969f2f4153f8e163528912415cce0df24a40004163b8ab835226764169ae1136adcd8e416fd6edb41c62534172d0364a75e9434175350a892f09734176d0b7e45e2fc541776f0835341ce24176fb63f746dfc34175851a1f1b5a4241733c245cdf7e0f417067528ba47a9e416aad25c80f9a514164a9d5c0be3db8415e75ad3b9a5518415554b878aa5893414c5624a64432444141d016c9316d104135239ac042e08441279a7ebb32ff164118b311654277b341081aaeb6ae298240f5cd97a1a07f4d40e222c54aab831840cb7576c81c50bc40b2a79494049fe640964be909763d0f4076bec4e3c8793c4052d5b5fd8552f44026fa6ea162d0f03ff00000000000004022f9422c23c47d404015f0f4a885a2,
  0x405ecd41d33eeffd408869120133fbab40ab047413c12faa40c81a800000000040e260f64ee282f240f8bb20c7ab31f7410df5806b69dbc441208fa60a7b83554130e0693b9b153d413ff0bcd36e1227414c3a807bab7425415767e6197eee77416245fedfbdf7c6416af1cbddbe9c094172cdb7cb3220944178e3bd5670e1d3417f4ac99a14f2be4182b4c4e03a6e704185499120a5d098418712b79d12ee354187d46e6beb0475418774b5d4a7de5b418600eae40ffb434183aacf8c7e37ef4180bdea5f9cdb01417b2093f5f0e4384174e59be87b626f416e93285976d21a4165359ae933be03415bd96bb9b8184c415143bead4959c9414427c32eeeeab24136143c8ecc33774126993fa13482de41157f86346705624102e1ccfce7796240ee5d0b46a2e87e40d6196b1f6ec07440bcae0922a72a8740a03c9bf4342f4d407f0cf508b856d14057c1af19233fd9402a3ad12a1da1603ff00000000000004026fa6ea162d0f0404b3fb4d7ab24d7405ecd41d33eeffd,
  0x40793f62d811dc8240a38b1d72956f9240c51d97073877ff40e260f64ee282f240fb53a0000000004111ea1160e35ceb412521583bcb57d84136badcf74b6000414684fe958a5cf54154b37f958439c44161c1e0f42e6313416c8e0c4c2706c0417598c1148b6303417ed147d67814574184ca1df4347b37418a91c4ac7d275641901b03777f107b41928ad2a4126d7b41944a11dbe5566a41951c9879b6f5a54194e543fcdb75a24193ac674d9cf91d41919dcff4bc9d48418dfe03af4d4d05418841297259051141829dac053deb85417b165d9d0f79d74172a6857970e1694168420d79afbc46415dba95da03708741511d07ef1e10db414271236c0cd4f7413284c4dae590ab41213b35ee48a586410d818425c8a27a40f7092e7df8c2c240e034d2c8097ad140c4387d4619c79b40a5de3fee130bbc4083cf04036e6766405c693a453faf1e402cfb95bb9dcc0c3ff0000000000000402a3ad12a1da1604052d5b5fd8552f4406dc7cb59453c4c40793f62d811dc82,
  0x40924b2b0c6e109340bba5941fdfca3240dd246c43d8db5540f8bb20c7ab31f74111ea1160e35ceb4126deac00000000413a3f0b5e77fe74414b72f1e13e24ec415a6afb2488b6264167920d5a82de8a41739b207fffd732417e8ad6d5d950fa41865acde73ce819418ed5f9a8025bbd419415a74c66f2f94198c072f9b36637419ce5639abdac4c419ffd0c1f665d4441a0cd192fd92b7041a0c0f43edebfc8419fb8f4e88dc263419c82712d45cf5c41985021e09b89d84193a96aa86a98a7418e2083059f57554185d6aa12498282417de8445fe4bf2c41734e19622fe00341676f7b176b5048415aab57fc5c67a7414c57ad38a27fcd413bff5e7517fff141298ee1fd8eae374115673e83fe3846410049efe62f4b5d40e64137fc7d50dd40cad71ab1f7916140abe83be9f626bf4088250e0fa3c50b406067332e34b140402f5e67fdcbdf433ff0000000000000402cfb95bb9dcc0c4057c1af19233fd94076bec4e3c8793c408af8f46a0609f240924b2b0c6e1093,
  0x40a7e90d4760baf440d1a07fd29d6db040f21dad57b0119c410df5806b69dbc4412521583bcb57d8413a3f0b5e77fe74414d48d600000000415dc05e2ceff0ce416bcaaaacf7e10341780b794cf6255a4183601f228f2efc418d35aa2987e49f4194aaa75faffb2d419b86387eb10eac41a149916abb58e641a483f6d0eaec3841a70780f6f9560541a8796004dcc82041a8a33e90ab934041a77ffb60b93ee041a53c9e97f130ed41a22d5114bd8f23419d73e3324c2a764196908a65e7d0b8419053b8617291f941864729f0dd512b417c9a2fb858d8ad41713b5ab154a80141636cab04fb07044154678be250199b4143e0a7cfb855dc4131d9bf5f8f7feb411d54dc87e8eb1f4105d58069b4edfc40ed143bc195347540d106e59254d99940b11cdb281b3041408c77fee03eec8c406279137606bf374030bbb307acafda3ff0000000000000402f5e67fdcbdf43405c693a453faf1e407f0cf508b856d140964be909763d0f40a526ffc989b6d340a7e90d4760baf4,
  0x40bc940e6aa40b5d40e48aa1ae4027a6410491ee1ea5197641208fa60a7b83554136badcf74b6000414b72f1e13e24ec415dc05e2ceff0ce416d563920000000417a92ec2c415f10418645d42af3e10941915e5c04f2384041994fb37c1c8f6341a14a7a82606de341a634bebce8e29641aadc6f685c03dd41aea69f49f4f12d41b083e28656b99d41b0d1eb6001f65841b0323abb52c67241ad7dff56ed241e41a96200cfda4b9c41a4a3b03bbcedf2419faeb34798d3ec4196eca4c41fd3ae418f392767f35dd64183f8703d0a2ee24177ee2e409abe8f416ac6599173cab7415bdc2b8de9a7ee414ad3aa539d39724137c21b4d94e386412333b4265bd3dc410c0bd8463c932d40f2448337a4d86540d4da89553ab15140b459e0cc50401940905ce64d4a1e0f40646a7e156787994031a9dc8f6df1033ff00000000000004030bbb307acafda406067332e34b1404083cf04036e676640a03c9bf4342f4d40b2a79494049fe640bd7edb07558e4340bc940e6aa40b5d,
  0x40cf8cb51d8a8b1240f6188430782b5541158b4e0d93ee334130e0693b9b153d414684fe958a5cf5415a6afb2488b626416bcaaaacf7e103417a92ec2c415f10418751aa200000004192ea098ed1e355419c840a5e5dcb4541a40fc590213d6341aa6e3333c5095441b057dbed20f5c441b30244bdf9952641b4d2bae6b3591f41b581351ceb9bf141b4f30b059a304041b3416a14176e1441b0b25826e28f8c41ab4da9ab5cbd6141a50856d1d99522419e7e0696d901fc4194c3f1be6bd87c418a83d935424482417fa82cdec3240f41719cbf34754bd14162309d1ff5f227415159936a9ddb4a413e6019889d099e412835f77a8cc00b411164c0301f0b8240f63ab38da802b640d8d2211c326fd740b79cb3c513e1cf40926f3863ea321640663b98035e266b40327e451bb944c33ff00000000000004031a9dc8f6df103406279137606bf374088250e0fa3c50b40a5de3fee130bbc40bcae0922a72a8740cb7576c81c50bc40d29b61d7f967dc40cf8cb51d8a8b12,
  0x40e035039953b32041061a955b7a5a604124f8341e564f94413ff0bcd36e12274154b37f958439c44167920d5a82de8a41780b794cf6255a418645d42af3e1094192ea098ed1e355419da8fe9000000041a5965fad866c7641ad4a30901509b441b2945d510c5c6241b617ee0268cd5b41b8ab4dd09a127841b9e5d0e5df1ece41b99520265be0e241b7ca00d5b4e1c041b4d30b4575b3f041b12778aaa6b54e41aa933cf88e143841a3559444453586419a619fdd80ea514190d7ccda356aad418412a097d6f511417640e82c9477144166db5297d9ebbf4155a39e4ca825904142c3755377f0e4412d90b31fdb5f834114f25cccaf395940fa55c2dae413f540dcd93ab4c95c6640bad7d6da9fcb9440946dc2d02983274067ec780d89af0840333c42213ee0c93ff000000000000040327e451bb944c340646a7e15678799408c77fee03eec8c40abe83be9f626bf40c4387d4619c79b40d6196b1f6ec07440e222c54aab831840e581a613d0fdfc40e035039953b320,
  0x40ef2cc9b316cc2c4114af29d4a5fb50413313e4ad6c6f63414c3a807bab74254161c1e0f42e631341739b207fffd7324183601f228f2efc41915e5c04f23840419c840a5e5dcb4541a5965fad866c7641ae4d2ad000000041b3cb8f6725fdb141b825ca5912552e41bb90e826c28c9d41bd7f4a9c625d8341bd9eb09c547dc241bbededeaaab0d941b8bc1578bc554c41b491cecfc85b8841b00d6e58c74b2841a77c9ea3a65d0d41a0150fd80ca7454194929032316c914188847994a92de2417b21c1e1bb9e06416bc408bc71515c415a244e9fe3772741467fd22685bab741318ef553fcc1c1411897a5bab7b06f40fe7dba0596e88e40e06dd984638c2b40bdfecbb9d01e06409653ffa446f06540697d2d0524285b4033e655eefe13673ff000000000000040333c42213ee0c940663b98035e266b40905ce64d4a1e0f40b11cdb281b304140cad71ab1f7916140e034d2c8097ad140ee5d0b46a2e87e40f5cd97a1a07f4d40f6fb83cfd4de5940ef2cc9b316cc2c,
  0x40fc32e4ee531c204122309c09c3a1ae41404c390a0ff06e415767e6197eee77416c8e0c4c2706c0417e8ad6d5d950fa418d35aa2987e49f41994fb37c1c8f6341a40fc590213d6341ad4a30901509b441b3cb8f6725fdb141b8de5cac00000041bd1f850f7ec6cb41bfdc53b446e82b41c04e2226b3248841bf41ef40a3027441bc11f30ae8f2b741b79dc8d89ba85c41b29b1a385f493241ab6d3a242745e541a2e253ffc42fcd41983eb44f10778d418cf2555562d46641800442f2f57ed641705c7303bd6ceb415eb23a36b0acbb414a4605905ede55413459f43b79e536411c3c2a38f85f3c41014d2792b1f7d740e26307c008cf1740c08309b8673ecd40981dfbefbea44c406aedc0f21ee5fa40347e7054af09893ff00000000000004033e655eefe13674067ec780d89af0840926f3863ea321640b459e0cc50401940d106e59254d99940e64137fc7d50dd40f7092e7df8c2c24102e1ccfce7796241081aaeb6ae29824106de05fda57acd40fc32e4ee531c20,
  0x4108144df429ee2e412e2d749a1447fe414a3e427b969f2f416245fedfbdf7c6417598c1148b630341865acde73ce8194194aaa75faffb2d41a14a7a82606de341aa6e3333c5095441b2945d510c5c6241b825ca5912552e41bd1f850f7ec6cb41c0579bfc00000041c119de384bfc4c41c0b536c53d0f2041be8116aa95119741ba06214e6a760341b4be12cc4801eb41aede216216c83d41a5699ce33be663419ba4bb53f03a0e41908ffc7aacb2ea41825ca257733a124172c1bc1005db97416190423d631627414df4d83d9a4ebc4137138857e1062b411fc707fedcf9e5410349c6d46e9f1a40e442e50d6757e040c1f1975814427d4099c84443e9e354406c3e3ad8e1ebc7403506177f5491ba3ff000000000000040347e7054af098940697d2d0524285b40946dc2d029832740b79cb3c513e1cf40d4da89553ab15140ed143bc1953475410049efe62f4b5d410d818425c8a27a41157f86346705624118b311654277b341154d433f95d8774108144df429ee2e,
  0x41137880cb645d894137af215d1159e34153f8e163528912416af1cbddbe9c09417ed147d6781457418ed5f9a8025bbd419b86387eb10eac41a634bebce8e29641b057dbed20f5c441b617ee0268cd5b41bb90e826c28c9d41bfdc53b446e82b41c119de384bfc4c41c114e9b400000041bfc9da5259ad6d41bb915e69c192bd41b647ef10a56e3241b0c5c3f222c1f741a77ddb30c7cfbd419e8e031382efa84192687b32b6735b41847b90a7fa647c4174f612a14136fd4163a0b1e7b575894150b54dec216e9d4139a5dafa68486741218fe1fa51d7514105293735d46c6540e604c93aba1c9340c3464ef760b8c3409b4fd5d22dee1c406d6e9fc396fea840357e82ecdabe8c3ff0000000000000403506177f5491ba406aedc0f21ee5fa409653ffa446f06540bad7d6da9fcb9440d8d2211c326fd740f2448337a4d8654105d58069b4edfc4115673e83fe384641213b35ee48a5864126993fa13482de41279a7ebb32ff164122a903038208c241137880cb645d89,
  0x411de4b3ce51ba784141a15150079bc5415cce0df24a40004172cdb7cb3220944184ca1df4347b37419415a74c66f2f941a149916abb58e641aadc6f685c03dd41b30244bdf9952641b8ab4dd09a127841bd7f4a9c625d8341c04e2226b3248841c0b536c53d0f2041bfc9da5259ad6d41bc19895000000041b71617dccbe5b341b19f4eacdbdbae41a8f87310a2bc9141a064d94393fbb54193e6c7f45c8fb34186445b3036452c4176dedd8aa7688341657459bfff3abe4152436638e1e63e413bfbef7ffefeb64123178a30f69a074106e0afe2147bcf40e7a0c2a788c12a40c47cf0bf4e8457409cb212e35475e5406e7ef3644c39314035e8add236a58e3ff000000000000040357e82ecdabe8c406c3e3ad8e1ebc740981dfbefbea44c40bdfecbb9d01e0640dcd93ab4c95c6640f63ab38da802b6410c0bd8463c932d411d54dc87e8eb1f41298ee1fd8eae37413284c4dae590ab4136143c8ecc33774135239ac042e084412eda4e4c0d5099411de4b3ce51ba78,
  0x4125d4be5da3a97a4148f21e567b38cd4163b8ab835226764178e3bd5670e1d3418a91c4ac7d27564198c072f9b3663741a483f6d0eaec3841aea69f49f4f12d41b4d2bae6b3591f41b9e5d0e5df1ece41bd9eb09c547dc241bf41ef40a3027441be8116aa95119741bb915e69c192bd41b71617dccbe5b341b1e9e12300000041a9bd2fa3f40a9741a1189c685a91164194f3a753fbc7d641879e240ae08cc64178646d675467294166f735c645272f415395cea3867f08413e027709e6ab7941246fcc7e1d0a1e4108665ec61aed1f40e90fade0d4bf9c40c591bcccb013e2409decb9cef539c9406f6f387bbedf66403645640568c1c33ff00000000000004035e8add236a58e406d6e9fc396fea84099c84443e9e35440c08309b8673ecd40e06dd984638c2b40fa55c2dae413f5411164c0301f0b82412333b4265bd3dc4131d9bf5f8f7feb413bff5e7517fff1414271236c0cd4f7414427c32eeeeab24141d016c9316d104138241d5bf31e324125d4be5da3a97a,
  0x412e6333aebc0ec54150cd2d8375d4764169ae1136adcd8e417f4ac99a14f2be41901b03777f107b419ce5639abdac4c41a70780f6f9560541b083e28656b99d41b581351ceb9bf141b99520265be0e241bbededeaaab0d941bc11f30ae8f2b741ba06214e6a760341b647ef10a56e3241b19f4eacdbdbae41a9bd2fa3f40a9741a155f2a600000041957e700fe3e1f4418875b6cea4bd4e417973837f0904794168186d6ca1a96d41549fafbdc657ec413fa88ea35c22d541258f3eeb9f8adf4109b19c936c2b1c40ea4b498929e23140c681733409f558409efddddcb11e6e40701fb88e43f5cd4036954b41cd42933ff0000000000000403645640568c1c3406e7ef3644c3931409b4fd5d22dee1c40c1f1975814427d40e26307c008cf1740fe7dba0596e88e4114f25cccaf3959412835f77a8cc00b4137c21b4d94e3864143e0a7cfb855dc414c57ad38a27fcd41511d07ef1e10db415143bead4959c9414c5624a64432444141ebec47f526e4412e6333aebc0ec5,
  0x41342f0861a9d5b1415593523de33ca9416fd6edb41c62534182b4c4e03a6e7041928ad2a4126d7b419ffd0c1f665d4441a8796004dcc82041b0d1eb6001f65841b4f30b059a304041b7ca00d5b4e1c041b8bc1578bc554c41b79dc8d89ba85c41b4be12cc4801eb41b0c5c3f222c1f741a8f87310a2bc9141a1189c685a911641957e700fe3e1f44188bef3f80000004179fe8f86b48d564168cb426c9e5545415556d9e5a2a184414070312a48e5fe41266e035fffbeff410abb18c20f3ed940eb4e46e42c366e40c74954040bcbc8409fe3e1a5625092407077cf6c0be82a4036d8e9eb3653533ff00000000000004036954b41cd4293406f6f387bbedf66409cb212e35475e540c3464ef760b8c340e442e50d6757e041014d2792b1f7d7411897a5bab7b06f412d90b31fdb5f83413e6019889d099e414ad3aa539d39724154678be250199b415aab57fc5c67a7415dba95da037087415bd96bb9b8184c415554b878aa589341494b9e36e71afb41342f0861a9d5b1,
  0x41399e7dd2ba18af415a70fa4b31d1084172d0364a75e9434185499120a5d09841944a11dbe5566a41a0cd192fd92b7041a8a33e90ab934041b0323abb52c67241b3416a14176e1441b4d30b4575b3f041b491cecfc85b8841b29b1a385f493241aede216216c83d41a77ddb30c7cfbd41a064d94393fbb54194f3a753fbc7d6418875b6cea4bd4e4179fe8f86b48d56416907c4c00000004155b43d7063a0e14140cfd8518ff1d04127060082c4d654410b7cfd91d7f2c140ec1457488d470140c7e71f472b15e040a04eb9545390ba4070bfe16eb26fbd403710ac0b5e5e313ff00000000000004036d8e9eb36535340701fb88e43f5cd409decb9cef539c940c47cf0bf4e845740e604c93aba1c93410349c6d46e9f1a411c3c2a38f85f3c41318ef553fcc1c14142c3755377f0e4415159936a9ddb4a415bdc2b8de9a7ee41636cab04fb070441676f7b176b50484168420d79afbc464165359ae933be03415e75ad3b9a55184150ff7c54e92af341399e7dd2ba18af,
  0x413f19b4eab8570a415ef3c13f80b3a64175350a892f0973418712b79d12ee3541951c9879b6f5a541a0c0f43edebfc841a77ffb60b93ee041ad7dff56ed241e41b0b25826e28f8c41b12778aaa6b54e41b00d6e58c74b2841ab6d3a242745e541a5699ce33be663419e8e031382efa84193e6c7f45c8fb341879e240ae08cc6417973837f0904794168cb426c9e55454155b43d7063a0e14140f015800000004127530d112c3ad4410bf30c0b42a33f40ec9a36ab1d7f6d40c8591504b0144440a094c2f02ec8034070f7ef0709e60b40373ce704fb7b233ff0000000000000403710ac0b5e5e31407077cf6c0be82a409efddddcb11e6e40c591bcccb013e240e7a0c2a788c12a4105293735d46c65411fc707fedcf9e5413459f43b79e53641467fd22685bab74155a39e4ca825904162309d1ff5f227416ac6599173cab741713b5ab154a80141734e19622fe0034172a6857970e169416e93285976d21a4164a9d5c0be3db84155c7f9c4640ca4413f19b4eab8570a,
  0x414211556844f868416150cb2587570a4176d0b7e45e2fc54187d46e6beb04754194e543fcdb75a2419fb8f4e88dc26341a53c9e97f130ed41a96200cfda4b9c41ab4da9ab5cbd6141aa933cf88e143841a77c9ea3a65d0d41a2e253ffc42fcd419ba4bb53f03a0e4192687b32b6735b4186445b3036452c4178646d675467294168186d6ca1a96d415556d9e5a2a1844140cfd8518ff1d04127530d112c3ad4410c1ab00000000040ecddb3689109fc40c89df541646dcc40a0c3aa9575258f40711ff88688a56d40375ddc4efa914a3ff000000000000040373ce704fb7b234070bfe16eb26fbd409fe3e1a562509240c681733409f55840e90fade0d4bf9c4106e0afe2147bcf41218fe1fa51d7514137138857e1062b414a4605905ede55415a244e9fe377274166db5297d9ebbf41719cbf34754bd14177ee2e409abe8f417c9a2fb858d8ad417de8445fe4bf2c417b165d9d0f79d74174e59be87b626f416aad25c80f9a51415aa3aeafe3e85f414211556844f868,
  0x41441a989cd49488416286a6b97ecacd41776f0835341ce2418774b5d4a7de5b4193ac674d9cf91d419c82712d45cf5c41a22d5114bd8f2341a4a3b03bbcedf241a50856d1d9952241a355944445358641a0150fd80ca74541983eb44f10778d41908ffc7aacb2ea41847b90a7fa647c4176dedd8aa768834166f735c645272f41549fafbdc657ec414070312a48e5fe4127060082c4d654410bf30c0b42a33f40ecddb3689109fc40c8b5000000000040a0db2eb841c5d9407137fe243d3a6b403773bb6fa96c503ff000000000000040375ddc4efa914a4070f7ef0709e60b40a04eb9545390ba40c74954040bcbc840ea4b498929e2314108665ec61aed1f4123178a30f69a074139a5dafa684867414df4d83d9a4ebc415eb23a36b0acbb416bc408bc71515c417640e82c947714417fa82cdec3240f4183f8703d0a2ee241864729f0dd512b4185d6aa1249828241829dac053deb85417b2093f5f0e438417067528ba47a9e415f1fa77512736d41441a989cd49488,
  0x41456e4a385b87634162f574b676fbad4176fb63f746dfc3418600eae40ffb4341919dcff4bc9d4841985021e09b89d8419d73e3324c2a76419faeb34798d3ec419e7e0696d901fc419a619fdd80ea514194929032316c91418cf2555562d46641825ca257733a124174f612a14136fd41657459bfff3abe415395cea3867f08413fa88ea35c22d541266e035fffbeff410b7cfd91d7f2c140ec9a36ab1d7f6d40c89df541646dcc40a0db2eb841c5d9407140000000000040377ea35d632e433ff0000000000000403773bb6fa96c5040711ff88688a56d40a094c2f02ec80340c7e71f472b15e040eb4e46e42c366e4109b19c936c2b1c41246fcc7e1d0a1e413bfbef7ffefeb64150b54dec216e9d416190423d63162741705c7303bd6ceb417b21c1e1bb9e06418412a097d6f511418a83d935424482418f392767f35dd6419053b8617291f9418e2083059f575541884129725905114180bdea5f9cdb0141733c245cdf7e0f4161610051ed115f41456e4a385b8763,
  0x4145e449c449546941628f4435c376674175851a1f1b5a424183aacf8c7e37ef418dfe03af4d4d054193a96aa86a98a74196908a65e7d0b84196eca4c41fd3ae4194c3f1be6bd87c4190d7ccda356aad4188847994a92de241800442f2f57ed64172c1bc1005db974163a0b1e7b575894152436638e1e63e413e027709e6ab7941258f3eeb9f8adf410abb18c20f3ed940ec1457488d470140c8591504b0144440a0c3aa9575258f407137fe243d3a6b40377ea35d632e433ff000000000000040377ea35d632e43407137fe243d3a6b40a0c3aa9575258f40c8591504b0144440ec1457488d4701410abb18c20f3ed941258f3eeb9f8adf413e027709e6ab794152436638e1e63e4163a0b1e7b575894172c1bc1005db9741800442f2f57ed64188847994a92de24190d7ccda356aad4194c3f1be6bd87c4196eca4c41fd3ae4196908a65e7d0b84193a96aa86a98a7418dfe03af4d4d054183aacf8c7e37ef4175851a1f1b5a4241628f4435c376674145e449c4495469,
  0x41456e4a385b87634161610051ed115f41733c245cdf7e0f4180bdea5f9cdb014188412972590511418e2083059f5755419053b8617291f9418f392767f35dd6418a83d935424482418412a097d6f511417b21c1e1bb9e0641705c7303bd6ceb416190423d6316274150b54dec216e9d413bfbef7ffefeb641246fcc7e1d0a1e4109b19c936c2b1c40eb4e46e42c366e40c7e71f472b15e040a094c2f02ec80340711ff88688a56d403773bb6fa96c503ff000000000000040377ea35d632e43407140000000000040a0db2eb841c5d940c89df541646dcc40ec9a36ab1d7f6d410b7cfd91d7f2c141266e035fffbeff413fa88ea35c22d5415395cea3867f0841657459bfff3abe4174f612a14136fd41825ca257733a12418cf2555562d4664194929032316c91419a619fdd80ea51419e7e0696d901fc419faeb34798d3ec419d73e3324c2a7641985021e09b89d841919dcff4bc9d48418600eae40ffb434176fb63f746dfc34162f574b676fbad41456e4a385b8763,
  0x41441a989cd49488415f1fa77512736d417067528ba47a9e417b2093f5f0e43841829dac053deb854185d6aa1249828241864729f0dd512b4183f8703d0a2ee2417fa82cdec3240f417640e82c947714416bc408bc71515c415eb23a36b0acbb414df4d83d9a4ebc4139a5dafa6848674123178a30f69a074108665ec61aed1f40ea4b498929e23140c74954040bcbc840a04eb9545390ba4070f7ef0709e60b40375ddc4efa914a3ff0000000000000403773bb6fa96c50407137fe243d3a6b40a0db2eb841c5d940c8b5000000000040ecddb3689109fc410bf30c0b42a33f4127060082c4d654414070312a48e5fe41549fafbdc657ec4166f735c645272f4176dedd8aa7688341847b90a7fa647c41908ffc7aacb2ea41983eb44f10778d41a0150fd80ca74541a355944445358641a50856d1d9952241a4a3b03bbcedf241a22d5114bd8f23419c82712d45cf5c4193ac674d9cf91d418774b5d4a7de5b41776f0835341ce2416286a6b97ecacd41441a989cd49488,
  0x414211556844f868415aa3aeafe3e85f416aad25c80f9a514174e59be87b626f417b165d9d0f79d7417de8445fe4bf2c417c9a2fb858d8ad4177ee2e409abe8f41719cbf34754bd14166db5297d9ebbf415a244e9fe37727414a4605905ede554137138857e1062b41218fe1fa51d7514106e0afe2147bcf40e90fade0d4bf9c40c681733409f558409fe3e1a56250924070bfe16eb26fbd40373ce704fb7b233ff000000000000040375ddc4efa914a40711ff88688a56d40a0c3aa9575258f40c89df541646dcc40ecddb3689109fc410c1ab0000000004127530d112c3ad44140cfd8518ff1d0415556d9e5a2a1844168186d6ca1a96d4178646d675467294186445b3036452c4192687b32b6735b419ba4bb53f03a0e41a2e253ffc42fcd41a77c9ea3a65d0d41aa933cf88e143841ab4da9ab5cbd6141a96200cfda4b9c41a53c9e97f130ed419fb8f4e88dc2634194e543fcdb75a24187d46e6beb04754176d0b7e45e2fc5416150cb2587570a414211556844f868,
  0x413f19b4eab8570a4155c7f9c4640ca44164a9d5c0be3db8416e93285976d21a4172a6857970e16941734e19622fe00341713b5ab154a801416ac6599173cab74162309d1ff5f2274155a39e4ca8259041467fd22685bab7413459f43b79e536411fc707fedcf9e54105293735d46c6540e7a0c2a788c12a40c591bcccb013e2409efddddcb11e6e407077cf6c0be82a403710ac0b5e5e313ff000000000000040373ce704fb7b234070f7ef0709e60b40a094c2f02ec80340c8591504b0144440ec9a36ab1d7f6d410bf30c0b42a33f4127530d112c3ad44140f015800000004155b43d7063a0e14168cb426c9e5545417973837f09047941879e240ae08cc64193e6c7f45c8fb3419e8e031382efa841a5699ce33be66341ab6d3a242745e541b00d6e58c74b2841b12778aaa6b54e41b0b25826e28f8c41ad7dff56ed241e41a77ffb60b93ee041a0c0f43edebfc841951c9879b6f5a5418712b79d12ee354175350a892f0973415ef3c13f80b3a6413f19b4eab8570a,
  0x41399e7dd2ba18af4150ff7c54e92af3415e75ad3b9a55184165359ae933be034168420d79afbc4641676f7b176b504841636cab04fb0704415bdc2b8de9a7ee415159936a9ddb4a4142c3755377f0e441318ef553fcc1c1411c3c2a38f85f3c410349c6d46e9f1a40e604c93aba1c9340c47cf0bf4e8457409decb9cef539c940701fb88e43f5cd4036d8e9eb3653533ff0000000000000403710ac0b5e5e314070bfe16eb26fbd40a04eb9545390ba40c7e71f472b15e040ec1457488d4701410b7cfd91d7f2c14127060082c4d6544140cfd8518ff1d04155b43d7063a0e1416907c4c00000004179fe8f86b48d56418875b6cea4bd4e4194f3a753fbc7d641a064d94393fbb541a77ddb30c7cfbd41aede216216c83d41b29b1a385f493241b491cecfc85b8841b4d30b4575b3f041b3416a14176e1441b0323abb52c67241a8a33e90ab934041a0cd192fd92b7041944a11dbe5566a4185499120a5d0984172d0364a75e943415a70fa4b31d10841399e7dd2ba18af,
  0x41342f0861a9d5b141494b9e36e71afb415554b878aa5893415bd96bb9b8184c415dba95da037087415aab57fc5c67a74154678be250199b414ad3aa539d3972413e6019889d099e412d90b31fdb5f83411897a5bab7b06f41014d2792b1f7d740e442e50d6757e040c3464ef760b8c3409cb212e35475e5406f6f387bbedf664036954b41cd42933ff00000000000004036d8e9eb365353407077cf6c0be82a409fe3e1a562509240c74954040bcbc840eb4e46e42c366e410abb18c20f3ed941266e035fffbeff414070312a48e5fe415556d9e5a2a1844168cb426c9e55454179fe8f86b48d564188bef3f800000041957e700fe3e1f441a1189c685a911641a8f87310a2bc9141b0c5c3f222c1f741b4be12cc4801eb41b79dc8d89ba85c41b8bc1578bc554c41b7ca00d5b4e1c041b4f30b059a304041b0d1eb6001f65841a8796004dcc820419ffd0c1f665d4441928ad2a4126d7b4182b4c4e03a6e70416fd6edb41c6253415593523de33ca941342f0861a9d5b1,
  0x412e6333aebc0ec54141ebec47f526e4414c5624a6443244415143bead4959c941511d07ef1e10db414c57ad38a27fcd4143e0a7cfb855dc4137c21b4d94e386412835f77a8cc00b4114f25cccaf395940fe7dba0596e88e40e26307c008cf1740c1f1975814427d409b4fd5d22dee1c406e7ef3644c3931403645640568c1c33ff00000000000004036954b41cd429340701fb88e43f5cd409efddddcb11e6e40c681733409f55840ea4b498929e2314109b19c936c2b1c41258f3eeb9f8adf413fa88ea35c22d541549fafbdc657ec4168186d6ca1a96d417973837f090479418875b6cea4bd4e41957e700fe3e1f441a155f2a600000041a9bd2fa3f40a9741b19f4eacdbdbae41b647ef10a56e3241ba06214e6a760341bc11f30ae8f2b741bbededeaaab0d941b99520265be0e241b581351ceb9bf141b083e28656b99d41a70780f6f95605419ce5639abdac4c41901b03777f107b417f4ac99a14f2be4169ae1136adcd8e4150cd2d8375d476412e6333aebc0ec5,
  0x4125d4be5da3a97a4138241d5bf31e324141d016c9316d10414427c32eeeeab2414271236c0cd4f7413bff5e7517fff14131d9bf5f8f7feb412333b4265bd3dc411164c0301f0b8240fa55c2dae413f540e06dd984638c2b40c08309b8673ecd4099c84443e9e354406d6e9fc396fea84035e8add236a58e3ff0000000000000403645640568c1c3406f6f387bbedf66409decb9cef539c940c591bcccb013e240e90fade0d4bf9c4108665ec61aed1f41246fcc7e1d0a1e413e027709e6ab79415395cea3867f084166f735c645272f4178646d6754672941879e240ae08cc64194f3a753fbc7d641a1189c685a911641a9bd2fa3f40a9741b1e9e12300000041b71617dccbe5b341bb915e69c192bd41be8116aa95119741bf41ef40a3027441bd9eb09c547dc241b9e5d0e5df1ece41b4d2bae6b3591f41aea69f49f4f12d41a483f6d0eaec384198c072f9b36637418a91c4ac7d27564178e3bd5670e1d34163b8ab835226764148f21e567b38cd4125d4be5da3a97a,
  0x411de4b3ce51ba78412eda4e4c0d50994135239ac042e0844136143c8ecc3377413284c4dae590ab41298ee1fd8eae37411d54dc87e8eb1f410c0bd8463c932d40f63ab38da802b640dcd93ab4c95c6640bdfecbb9d01e0640981dfbefbea44c406c3e3ad8e1ebc740357e82ecdabe8c3ff00000000000004035e8add236a58e406e7ef3644c3931409cb212e35475e540c47cf0bf4e845740e7a0c2a788c12a4106e0afe2147bcf4123178a30f69a07413bfbef7ffefeb64152436638e1e63e41657459bfff3abe4176dedd8aa768834186445b3036452c4193e6c7f45c8fb341a064d94393fbb541a8f87310a2bc9141b19f4eacdbdbae41b71617dccbe5b341bc19895000000041bfc9da5259ad6d41c0b536c53d0f2041c04e2226b3248841bd7f4a9c625d8341b8ab4dd09a127841b30244bdf9952641aadc6f685c03dd41a149916abb58e6419415a74c66f2f94184ca1df4347b374172cdb7cb322094415cce0df24a40004141a15150079bc5411de4b3ce51ba78,
  0x41137880cb645d894122a903038208c241279a7ebb32ff164126993fa13482de41213b35ee48a5864115673e83fe38464105d58069b4edfc40f2448337a4d86540d8d2211c326fd740bad7d6da9fcb94409653ffa446f065406aedc0f21ee5fa403506177f5491ba3ff000000000000040357e82ecdabe8c406d6e9fc396fea8409b4fd5d22dee1c40c3464ef760b8c340e604c93aba1c934105293735d46c6541218fe1fa51d7514139a5dafa6848674150b54dec216e9d4163a0b1e7b575894174f612a14136fd41847b90a7fa647c4192687b32b6735b419e8e031382efa841a77ddb30c7cfbd41b0c5c3f222c1f741b647ef10a56e3241bb915e69c192bd41bfc9da5259ad6d41c114e9b400000041c119de384bfc4c41bfdc53b446e82b41bb90e826c28c9d41b617ee0268cd5b41b057dbed20f5c441a634bebce8e296419b86387eb10eac418ed5f9a8025bbd417ed147d6781457416af1cbddbe9c094153f8e1635289124137af215d1159e341137880cb645d89,
  0x4108144df429ee2e41154d433f95d8774118b311654277b341157f8634670562410d818425c8a27a410049efe62f4b5d40ed143bc195347540d4da89553ab15140b79cb3c513e1cf40946dc2d029832740697d2d0524285b40347e7054af09893ff0000000000000403506177f5491ba406c3e3ad8e1ebc74099c84443e9e35440c1f1975814427d40e442e50d6757e0410349c6d46e9f1a411fc707fedcf9e54137138857e1062b414df4d83d9a4ebc416190423d6316274172c1bc1005db9741825ca257733a1241908ffc7aacb2ea419ba4bb53f03a0e41a5699ce33be66341aede216216c83d41b4be12cc4801eb41ba06214e6a760341be8116aa95119741c0b536c53d0f2041c119de384bfc4c41c0579bfc00000041bd1f850f7ec6cb41b825ca5912552e41b2945d510c5c6241aa6e3333c5095441a14a7a82606de34194aaa75faffb2d41865acde73ce819417598c1148b6303416245fedfbdf7c6414a3e427b969f2f412e2d749a1447fe4108144df429ee2e,
  0x40fc32e4ee531c204106de05fda57acd41081aaeb6ae29824102e1ccfce7796240f7092e7df8c2c240e64137fc7d50dd40d106e59254d99940b459e0cc50401940926f3863ea32164067ec780d89af084033e655eefe13673ff000000000000040347e7054af0989406aedc0f21ee5fa40981dfbefbea44c40c08309b8673ecd40e26307c008cf1741014d2792b1f7d7411c3c2a38f85f3c413459f43b79e536414a4605905ede55415eb23a36b0acbb41705c7303bd6ceb41800442f2f57ed6418cf2555562d46641983eb44f10778d41a2e253ffc42fcd41ab6d3a242745e541b29b1a385f493241b79dc8d89ba85c41bc11f30ae8f2b741bf41ef40a3027441c04e2226b3248841bfdc53b446e82b41bd1f850f7ec6cb41b8de5cac00000041b3cb8f6725fdb141ad4a30901509b441a40fc590213d6341994fb37c1c8f63418d35aa2987e49f417e8ad6d5d950fa416c8e0c4c2706c0415767e6197eee7741404c390a0ff06e4122309c09c3a1ae40fc32e4ee531c20,
  0x40ef2cc9b316cc2c40f6fb83cfd4de5940f5cd97a1a07f4d40ee5d0b46a2e87e40e034d2c8097ad140cad71ab1f7916140b11cdb281b304140905ce64d4a1e0f40663b98035e266b40333c42213ee0c93ff00000000000004033e655eefe136740697d2d0524285b409653ffa446f06540bdfecbb9d01e0640e06dd984638c2b40fe7dba0596e88e411897a5bab7b06f41318ef553fcc1c141467fd22685bab7415a244e9fe37727416bc408bc71515c417b21c1e1bb9e064188847994a92de24194929032316c9141a0150fd80ca74541a77c9ea3a65d0d41b00d6e58c74b2841b491cecfc85b8841b8bc1578bc554c41bbededeaaab0d941bd9eb09c547dc241bd7f4a9c625d8341bb90e826c28c9d41b825ca5912552e41b3cb8f6725fdb141ae4d2ad000000041a5965fad866c76419c840a5e5dcb4541915e5c04f238404183601f228f2efc41739b207fffd7324161c1e0f42e6313414c3a807bab7425413313e4ad6c6f634114af29d4a5fb5040ef2cc9b316cc2c,
  0x40e035039953b32040e581a613d0fdfc40e222c54aab831840d6196b1f6ec07440c4387d4619c79b40abe83be9f626bf408c77fee03eec8c40646a7e1567879940327e451bb944c33ff000000000000040333c42213ee0c94067ec780d89af0840946dc2d029832740bad7d6da9fcb9440dcd93ab4c95c6640fa55c2dae413f54114f25cccaf3959412d90b31fdb5f834142c3755377f0e44155a39e4ca825904166db5297d9ebbf417640e82c947714418412a097d6f5114190d7ccda356aad419a619fdd80ea5141a355944445358641aa933cf88e143841b12778aaa6b54e41b4d30b4575b3f041b7ca00d5b4e1c041b99520265be0e241b9e5d0e5df1ece41b8ab4dd09a127841b617ee0268cd5b41b2945d510c5c6241ad4a30901509b441a5965fad866c76419da8fe900000004192ea098ed1e355418645d42af3e10941780b794cf6255a4167920d5a82de8a4154b37f958439c4413ff0bcd36e12274124f8341e564f9441061a955b7a5a6040e035039953b320,
  0x40cf8cb51d8a8b1240d29b61d7f967dc40cb7576c81c50bc40bcae0922a72a8740a5de3fee130bbc4088250e0fa3c50b406279137606bf374031a9dc8f6df1033ff000000000000040327e451bb944c340663b98035e266b40926f3863ea321640b79cb3c513e1cf40d8d2211c326fd740f63ab38da802b6411164c0301f0b82412835f77a8cc00b413e6019889d099e415159936a9ddb4a4162309d1ff5f22741719cbf34754bd1417fa82cdec3240f418a83d9354244824194c3f1be6bd87c419e7e0696d901fc41a50856d1d9952241ab4da9ab5cbd6141b0b25826e28f8c41b3416a14176e1441b4f30b059a304041b581351ceb9bf141b4d2bae6b3591f41b30244bdf9952641b057dbed20f5c441aa6e3333c5095441a40fc590213d63419c840a5e5dcb454192ea098ed1e355418751aa20000000417a92ec2c415f10416bcaaaacf7e103415a6afb2488b626414684fe958a5cf54130e0693b9b153d41158b4e0d93ee3340f6188430782b5540cf8cb51d8a8b12,
  0x40bc940e6aa40b5d40bd7edb07558e4340b2a79494049fe640a03c9bf4342f4d4083cf04036e6766406067332e34b1404030bbb307acafda3ff00000000000004031a9dc8f6df10340646a7e1567879940905ce64d4a1e0f40b459e0cc50401940d4da89553ab15140f2448337a4d865410c0bd8463c932d412333b4265bd3dc4137c21b4d94e386414ad3aa539d3972415bdc2b8de9a7ee416ac6599173cab74177ee2e409abe8f4183f8703d0a2ee2418f392767f35dd64196eca4c41fd3ae419faeb34798d3ec41a4a3b03bbcedf241a96200cfda4b9c41ad7dff56ed241e41b0323abb52c67241b0d1eb6001f65841b083e28656b99d41aea69f49f4f12d41aadc6f685c03dd41a634bebce8e29641a14a7a82606de341994fb37c1c8f6341915e5c04f23840418645d42af3e109417a92ec2c415f10416d563920000000415dc05e2ceff0ce414b72f1e13e24ec4136badcf74b600041208fa60a7b8355410491ee1ea5197640e48aa1ae4027a640bc940e6aa40b5d,
  0x40a7e90d4760baf440a526ffc989b6d340964be909763d0f407f0cf508b856d1405c693a453faf1e402f5e67fdcbdf433ff00000000000004030bbb307acafda406279137606bf37408c77fee03eec8c40b11cdb281b304140d106e59254d99940ed143bc19534754105d58069b4edfc411d54dc87e8eb1f4131d9bf5f8f7feb4143e0a7cfb855dc4154678be250199b41636cab04fb070441713b5ab154a801417c9a2fb858d8ad41864729f0dd512b419053b8617291f94196908a65e7d0b8419d73e3324c2a7641a22d5114bd8f2341a53c9e97f130ed41a77ffb60b93ee041a8a33e90ab934041a8796004dcc82041a70780f6f9560541a483f6d0eaec3841a149916abb58e6419b86387eb10eac4194aaa75faffb2d418d35aa2987e49f4183601f228f2efc41780b794cf6255a416bcaaaacf7e103415dc05e2ceff0ce414d48d600000000413a3f0b5e77fe74412521583bcb57d8410df5806b69dbc440f21dad57b0119c40d1a07fd29d6db040a7e90d4760baf4,
  0x40924b2b0c6e1093408af8f46a0609f24076bec4e3c8793c4057c1af19233fd9402cfb95bb9dcc0c3ff0000000000000402f5e67fdcbdf43406067332e34b1404088250e0fa3c50b40abe83be9f626bf40cad71ab1f7916140e64137fc7d50dd410049efe62f4b5d4115673e83fe384641298ee1fd8eae37413bff5e7517fff1414c57ad38a27fcd415aab57fc5c67a741676f7b176b504841734e19622fe003417de8445fe4bf2c4185d6aa12498282418e2083059f57554193a96aa86a98a741985021e09b89d8419c82712d45cf5c419fb8f4e88dc26341a0c0f43edebfc841a0cd192fd92b70419ffd0c1f665d44419ce5639abdac4c4198c072f9b36637419415a74c66f2f9418ed5f9a8025bbd41865acde73ce819417e8ad6d5d950fa41739b207fffd7324167920d5a82de8a415a6afb2488b626414b72f1e13e24ec413a3f0b5e77fe744126deac000000004111ea1160e35ceb40f8bb20c7ab31f740dd246c43d8db5540bba5941fdfca3240924b2b0c6e1093,
  0x40793f62d811dc82406dc7cb59453c4c4052d5b5fd8552f4402a3ad12a1da1603ff0000000000000402cfb95bb9dcc0c405c693a453faf1e4083cf04036e676640a5de3fee130bbc40c4387d4619c79b40e034d2c8097ad140f7092e7df8c2c2410d818425c8a27a41213b35ee48a586413284c4dae590ab414271236c0cd4f741511d07ef1e10db415dba95da0370874168420d79afbc464172a6857970e169417b165d9d0f79d741829dac053deb854188412972590511418dfe03af4d4d0541919dcff4bc9d484193ac674d9cf91d4194e543fcdb75a241951c9879b6f5a541944a11dbe5566a41928ad2a4126d7b41901b03777f107b418a91c4ac7d27564184ca1df4347b37417ed147d6781457417598c1148b6303416c8e0c4c2706c04161c1e0f42e63134154b37f958439c4414684fe958a5cf54136badcf74b6000412521583bcb57d84111ea1160e35ceb40fb53a00000000040e260f64ee282f240c51d97073877ff40a38b1d72956f9240793f62d811dc82,
  0x405ecd41d33eeffd404b3fb4d7ab24d74026fa6ea162d0f03ff0000000000000402a3ad12a1da1604057c1af19233fd9407f0cf508b856d140a03c9bf4342f4d40bcae0922a72a8740d6196b1f6ec07440ee5d0b46a2e87e4102e1ccfce7796241157f86346705624126993fa13482de4136143c8ecc3377414427c32eeeeab2415143bead4959c9415bd96bb9b8184c4165359ae933be03416e93285976d21a4174e59be87b626f417b2093f5f0e4384180bdea5f9cdb014183aacf8c7e37ef418600eae40ffb43418774b5d4a7de5b4187d46e6beb0475418712b79d12ee354185499120a5d0984182b4c4e03a6e70417f4ac99a14f2be4178e3bd5670e1d34172cdb7cb322094416af1cbddbe9c09416245fedfbdf7c6415767e6197eee77414c3a807bab7425413ff0bcd36e12274130e0693b9b153d41208fa60a7b8355410df5806b69dbc440f8bb20c7ab31f740e260f64ee282f240c81a800000000040ab047413c12faa408869120133fbab405ecd41d33eeffd,
  0x404015f0f4a885a24022f9422c23c47d3ff00000000000004026fa6ea162d0f04052d5b5fd8552f44076bec4e3c8793c40964be909763d0f40b2a79494049fe640cb7576c81c50bc40e222c54aab831840f5cd97a1a07f4d41081aaeb6ae29824118b311654277b341279a7ebb32ff164135239ac042e0844141d016c9316d10414c5624a6443244415554b878aa5893415e75ad3b9a55184164a9d5c0be3db8416aad25c80f9a51417067528ba47a9e41733c245cdf7e0f4175851a1f1b5a424176fb63f746dfc341776f0835341ce24176d0b7e45e2fc54175350a892f09734172d0364a75e943416fd6edb41c62534169ae1136adcd8e4163b8ab83522676415cce0df24a40004153f8e163528912414a3e427b969f2f41404c390a0ff06e413313e4ad6c6f634124f8341e564f9441158b4e0d93ee33410491ee1ea5197640f21dad57b0119c40dd246c43d8db5540c51d97073877ff40ab047413c12faa408d900000000000406a16bafcb12e2d404015f0f4a885a2,
  0x401b211b1c70d0233ff00000000000004022f9422c23c47d404b3fb4d7ab24d7406dc7cb59453c4c408af8f46a0609f240a526ffc989b6d340bd7edb07558e4340d29b61d7f967dc40e581a613d0fdfc40f6fb83cfd4de594106de05fda57acd41154d433f95d8774122a903038208c2412eda4e4c0d50994138241d5bf31e324141ebec47f526e441494b9e36e71afb4150ff7c54e92af34155c7f9c4640ca4415aa3aeafe3e85f415f1fa77512736d4161610051ed115f41628f4435c376674162f574b676fbad416286a6b97ecacd416150cb2587570a415ef3c13f80b3a6415a70fa4b31d108415593523de33ca94150cd2d8375d4764148f21e567b38cd4141a15150079bc54137af215d1159e3412e2d749a1447fe4122309c09c3a1ae4114af29d4a5fb5041061a955b7a5a6040f6188430782b5540e48aa1ae4027a640d1a07fd29d6db040bba5941fdfca3240a38b1d72956f92408869120133fbab406a16bafcb12e2d4046800000000000401b211b1c70d023,
  0x3ff0000000000000401b211b1c70d023404015f0f4a885a2405ecd41d33eeffd40793f62d811dc8240924b2b0c6e109340a7e90d4760baf440bc940e6aa40b5d40cf8cb51d8a8b1240e035039953b32040ef2cc9b316cc2c40fc32e4ee531c204108144df429ee2e41137880cb645d89411de4b3ce51ba784125d4be5da3a97a412e6333aebc0ec541342f0861a9d5b141399e7dd2ba18af413f19b4eab8570a414211556844f86841441a989cd4948841456e4a385b87634145e449c449546941456e4a385b876341441a989cd49488414211556844f868413f19b4eab8570a41399e7dd2ba18af41342f0861a9d5b1412e6333aebc0ec54125d4be5da3a97a411de4b3ce51ba7841137880cb645d894108144df429ee2e40fc32e4ee531c2040ef2cc9b316cc2c40e035039953b32040cf8cb51d8a8b1240bc940e6aa40b5d40a7e90d4760baf440924b2b0c6e109340793f62d811dc82405ecd41d33eeffd404015f0f4a885a2401b211b1c70d0233ff0000000000000]

/-- The coefficients for `2 ell = 47`: one number for each of the 48 values of `mp`, consisting of the doubles for the 48 values of `m`. -/
def wigner47 : List Nat := [
  0x3ff0000000000000401b6c30b83593e640407074ccbc86db405fd5a3f6af6b74407a65532d98989640935a1775de247a40a999a5b0c9f1e340befa6a836271bf40d1513cc33c75c540e206427de9710240f1916c8fb5f34c41001c2fe843d076410be74d39c35d104116e4747fe2e6e44121d66e07ca3670412a751c269e6fcb4132b54fde477fad413943659c174e2641404eafcf41abbe41442594d7e7c1004147d6885aa3f49f414b079f20a7caa2414d626bf7c14d10414ea2aab47e6383414ea2aab47e6383414d626bf7c14d10414b079f20a7caa24147d6885aa3f49f41442594d7e7c10041404eafcf41abbe413943659c174e264132b54fde477fad412a751c269e6fcb4121d66e07ca36704116e4747fe2e6e4410be74d39c35d1041001c2fe843d07640f1916c8fb5f34c40e206427de9710240d1513cc33c75c540befa6a836271bf40a999a5b0c9f1e340935a1775de247a407a65532d989896405fd5a3f6af6b7440407074ccbc86db401b6c30b83593e63ff0000000000000,
  0x401b6c30b83593e64047000000000000406af9ff552f5dbf40898a1c1d12474640a4b1e839ee493e40bda39980b9872940d3233b60fe04a740e697d9b144701140f8a0e0b4b4b21d4108fa0f620dae194117b42799deeb464125262bb2be55184131ce908d7a088d413c621975d28bc74145772db3811c28414edfad511b222b415526186ab68c2e415ba3403f6fe4a641613ed1d7d343044164922c8a8fdcb24167787c10808c524169a0a606bfd9e4416ac9dcc672693c416acfd2bb5854ef4169b1d49e34a6ba416792eb3dfe48204164b2fc408743ae416162bab6e3f62a415beaf34e5586f14155687740e2f217414f529e25c314344145d4be5da3a97a413cf1b27c097008413236936200f11a4125b46dd291f26b41186bbeede9304c4109d951da76d9c840f9a02acfdc3c9f40e7a987d627e84e40d4353ba7f6b98840bfa163f82c9ce540a667afa9bf3da5408c3a490ce17488406ecd41d33eeffd404bdc7bc29f939340232eee757704163ff0000000000000401b6c30b83593e6,
  0x40407074ccbc86db406af9ff552f5dbf408ef0000000000040ac9faf3acdc45840c6a79f5cc4708840dfac628ad4b3ff40f3f3cd69cc4dac4106f7542dd0ed074118649ffeec2f154128164c5f64751841363dd6f92e53a341434b148bc388b6414f8f7987df2821415869bb4ffe68d14161e74bb41edc654168f21e567b38cd417089703f99bcbd4174e3eeccb15c5e41792bdff2de7170417cf3fe76206479417fcf8fcdc68e2c4180b2f7d43991154180c1e3b5173515418012b7aa44a58a417d77a60d7dda284179ce6e078504f341759492faa10a4341713832209e88c4416a3216fd297f794162f8b6a92d543c415a1ffd525fdcdb4151120041a6f46041451f99b074ba6b4138af64801b0917412b2792be4827ed411c01af6535e4cb410af30861b3aaa540f80b809eae9f9c40e3bc546cbf8e3040cd7edb07558e4340b3c94495bfd02640975bddc08b483440778b237ce6a7b140534491be50521a40273ce704fb7b233ff000000000000040232eee7577041640407074ccbc86db,
  0x405fd5a3f6af6b7440898a1c1d12474640ac9faf3acdc45840c9de000000000040e3fc4eede0a14740fb42962ce71d4c4110be31a6af91444122c71d536388ed41336b6dbbf789e44142a864e6e906b04150bfead8eed492415c3a807bab7425416668ce6dd5ea974170cf214d84d1114177e23e336a700141801a38c5f8e9d44184a32ad958e80241892bdff2de7170418d3f1b1e91e7b74190327fa9229ca541911c89eb46a3d441913f2b05525f9f419095f8aabdc0d0418e6f0bfc3a4843418aa12a7cb2ff3b418635e8d2d608e14181a50e79a1130f417aad25c80f9a51417329ee4024432f416a1ffd525fdcdb4160dd14249a11fd415491898808e0664147a25b962f67b741397ea3fdd3f66f4129b541fe166ced41181aaeb6ae29824104dff7c08fffd640f08e4018a4e5e140d7c7b1c39e421040be767d77dde2de40a1077d0e795c0c40801551cbd3659a405850cd5031294c402a887293fd6f343ff000000000000040273ce704fb7b23404bdc7bc29f9393405fd5a3f6af6b74,
  0x407a65532d98989640a4b1e839ee493e40c6a79f5cc4708840e3fc4eede0a14740fe212000000000411408ccc63d30d94127fa98b2dc9d17413a2f79180ebf2f414a593d575ffc5341589c9976ecd44f416576a30973714a41718dec931f32d9417b06d94b0448784183a396ffada098418b012d13259c0041919980124d8c554195c745aba2c59941999d4ac5553453419ca8b437d54221419e85da399c8925419ef4b158fe6a8b419de688a1bba93d419b81259d13fa144198165bcf1f4cad419412a1d744bfe5418fcf3d4f43a01c4187f0bf3f9175b1418117839da9cacc41771cc666d0540b416d89e4878a38b64161cbc4c92e722b415427c32eeeeab2414560c1279a47ef4135239ac042e084412360cf490896b041105a31b9385f7a40f92d115134a1d840e17894fd84a23840c58286d9fd5fe540a6f65545d95660408489bdaf8a0a2c405d1882e1fa52df402d5364c8cb8f863ff0000000000000402a887293fd6f3440534491be50521a406ecd41d33eeffd407a65532d989896,
  0x40935a1775de247a40bda39980b9872940dfac628ad4b3ff40fb42962ce71d4c411408ccc63d30d94129f5d800000000413e4100bdb2c71a4150128ebe49504f415f72606cec66c9416c88dab9bb0e224178271044552cc2418327bab3545fc0418c91dab783af354194172e84ffb917419ab4621159c3ab41a0cdd0e2de3c8741a40d1c475f499641a6b5a59b321d0d41a86e7cfc87c98c41a8facdc350f45541a84748f25f341741a66e622f4124a541a3b21f9b73649b41a06d6bf33c9ef6419a0295967551064193864766e62567418bc19c412a97de4182a6857970e1694177a4cf830b8bef416c34090401ed6a415f8e38d5087eaf41507eb6eb542d79414009a058f2daf1412cd55e05414fce4117c9d6e65814f74101d7efee7c937540e809b3133cb46540cc98a9547e731440ad56d7151f5a4140890e62431950d84060cee644d0ff58402fbfbf7ebc755e3ff0000000000000402d5364c8cb8f86405850cd5031294c40778b237ce6a7b1408c3a490ce1748840935a1775de247a,
  0x40a999a5b0c9f1e340d3233b60fe04a740f3f3cd69cc4dac4110be31a6af91444127fa98b2dc9d17413e4100bdb2c71a41512701000000004161b7df969f3ea84170d6924fa60a00417da8aeb6212f2d418857f138ff83ce4192b40aa6a9a247419afef159ae3bc441a259dadc169b0a41a78d1f879f75fd41ac94b382b740e441b06b9f5234fce941b1e1d10f3bcdd141b277f2dda15b5741b2189991d254e641b0d2c9a370db7b41adac759a02950041a8d07a7c7afa7441a3a96aa86a98a7419d7e1ffc9fe4fb4194e8a751bca8bd418bf9c83629521d41819f7fa757fee64174da13c291e5f8416718a7303c8c1f4157da8fd4eb4c384146dc21dbe6ec9c4134349a5ec08430412058d785b7ddb74107f9fb318be7c340ef79157da2cf7140d22bc27441b57640b203954f5cd7c8408d92371f3ff1194062f0d1837fca144030f0ea3f9397ce3ff0000000000000402fbfbf7ebc755e405d1882e1fa52df40801551cbd3659a40975bddc08b483440a667afa9bf3da540a999a5b0c9f1e3,
  0x40befa6a836271bf40e697d9b14470114106f7542dd0ed074122c71d536388ed413a2f79180ebf2f4150128ebe49504f4161b7df969f3ea84171c7a68000000041806657a58462db418c02e8f5dc600d419645d42af3e10941a08f6ff913b9a941a71b217a7edf4641ae548e9905fd6441b2c47c8a26218141b5ee95f832dd4141b83b4caeac34d641b9554782574ba141b912e2bda582da41b77ffb60b93ee041b4daa7850948cb41b1840c5663d07f41abd48624e8fdeb41a4e40993c0f1aa419d9862e6a6abb14193bf507deb38d94188c5330e762577417d208cb663663441700041edce9c0141605c278e15dd7a414efa18cc0d9393413afccf1421c4b3412577ec7fe8e3f8410ee0bfbdac9f4940f3d063db14834c40d64b22b256210840b573b1982535cd4091036911d646554064f244a73c38c84031e3779b97f4a73ff00000000000004030f0ea3f9397ce4060cee644d0ff58408489bdaf8a0a2c40a1077d0e795c0c40b3c94495bfd02640bfa163f82c9ce540befa6a836271bf,
  0x40d1513cc33c75c540f8a0e0b4b4b21d4118649ffeec2f1541336b6dbbf789e4414a593d575ffc53415f72606cec66c94170d6924fa60a0041806657a58462db418d5639200000004198456c8234cd3341a2ad20f7c8e12941aad8c2ca05a0da41b2155273b9fbc741b6e3b37aefc77a41bb470d8da2356941bea69f49f4f12d41c0414cc21f3c7b41c0493045be9dfe41bed62f8558ee4c41bb96603b439b9641b750cc0b1383cd41b29aa701e7fc7141ac00e9fb1ad82f41a3da64fb3d6797419a7886a451df7541908f029006f80a418362c6077f3d0141752ad6e1106f62416577b4c844429a41541ebfbeb5eb154141510f14f96e9e412b27dad7d322ff411333b4265bd3dc40f82a71d3307fd040da95534cdf8def40b8ecc5815b518940932feb91e2c7314066d3657220f6bc4032bc2891041ea73ff00000000000004031e3779b97f4a74062f0d1837fca1440890e62431950d840a6f65545d9566040be767d77dde2de40cd7edb07558e4340d4353ba7f6b98840d1513cc33c75c5,
  0x40e206427de971024108fa0f620dae194128164c5f6475184142a864e6e906b041589c9976ecd44f416c88dab9bb0e22417da8aeb6212f2d418c02e8f5dc600d4198456c8234cd3341a36eb87000000041ace8bc47f4b63641b40fc590213d6341ba0f902c900b2a41bfc3f5d9f6fbd341c23318ef183dd241c3a1dc4b0d801f41c3f49dc7c1356841c31fc41ee02e3a41c14848e86f811341bd733c19aebf3541b7a539bbea21a741b1dfcef2a6c05641a969057db4d6fc41a0f4734a778cb5419531901d156fe34188bf5342c66213417ae73982454110416b1dab82296f3e41593575c842fb6641457a88696031e04130a3252e480ea141173100402964ae40fcb2a9f4c8154940def4fddd2d605b40bc60d3f3e2bfff4095494943dd6d5d4068944b2fe2ed7240337e5bd40f95a13ff00000000000004032bc2891041ea74064f244a73c38c8408d92371f3ff11940ad56d7151f5a4140c58286d9fd5fe540d7c7b1c39e421040e3bc546cbf8e3040e7a987d627e84e40e206427de97102,
  0x40f1916c8fb5f34c4117b42799deeb4641363dd6f92e53a34150bfead8eed492416576a30973714a4178271044552cc2418857f138ff83ce419645d42af3e10941a2ad20f7c8e12941ace8bc47f4b63641b4c3189800000041bbc96846f3035b41c1612bee83b8d441c45e827221d25441c66828e11f3a9641c729e340dd139b41c685767613fbe941c49a18f7ed6c8d41c1bb386dc3768a41bcb4564acf4da141b5d56e36156c9a41af2cf4e393a60941a4db357db7607b419a17cfe9505378418e711d3addb6b7418080f0730ffe6e41708faf9ff3c5af415e9a3412c01edb4149dd1c3f97106a4133d53cf4ef1d6f411b4faa510ca3584100a7dd380da30b40e1aa82c836cd4440bfc2deb06efd2240974ad84f3484e9406a35050489f4ad40342c9b0eec7da33ff000000000000040337e5bd40f95a14066d3657220f6bc4091036911d6465540b203954f5cd7c840cc98a9547e731440e17894fd84a23840f08e4018a4e5e140f80b809eae9f9c40f9a02acfdc3c9f40f1916c8fb5f34c,
  0x41001c2fe843d0764125262bb2be551841434b148bc388b6415c3a807bab742541718dec931f32d9418327bab3545fc04192b40aa6a9a24741a08f6ff913b9a941aad8c2ca05a0da41b40fc590213d6341bbc96846f3035b41c1e7c7d800000041c5896e64844eb241c83b5e0f0cd4ed41c98b9c37c5243841c9428a274802f441c77173707a41d741c46c8bd23f60ae41c0b303e7da921341b99c624278ea7e41b265fb7a3a9de041a8b99f0d87cb6d419f03a492579a6d41921b7be373f23441839dc6366846634173a2239e1682b441620f6024989d7e414e568a79935c8d4137138857e1062b411f756b4fef47b34102f3e54fe9d56e40e3d072107be4f640c1837368e67daf409930841fadb930406bb59d310a1ed34034c8dc2e42397f3ff000000000000040342c9b0eec7da34068944b2fe2ed7240932feb91e2c73140b573b1982535cd40d22bc27441b57640e809b3133cb46540f92d115134a1d84104dff7c08fffd6410af30861b3aaa54109d951da76d9c841001c2fe843d076,
  0x410be74d39c35d104131ce908d7a088d414f8f7987df2821416668ce6dd5ea97417b06d94b044878418c91dab783af35419afef159ae3bc441a71b217a7edf4641b2155273b9fbc741ba0f902c900b2a41c1612bee83b8d441c5896e64844eb241c8de5cac00000041cad092715db80d41cb0a0464af806341c9858d5ea4d41741c68ee61b58a80041c2ab9cc393833a41bcec8b2b2bd5dc41b4f28d0060c11341ac537dffa647b341a1d802bd5c95524194e3f28adff4654186a6a53c3ecd114176a6a53c3ecd114164c80b8b7c64a6415160d85f60d8a9413a4605905ede554121c39ee6c604f141053095988e77ac40e5e27c9423771640c310f688761228409af6b95e9d3ac8406d161ae2ba4ba9403554aaa7ffeaa93ff00000000000004034c8dc2e42397f406a35050489f4ad4095494943dd6d5d40b8ecc5815b518940d64b22b256210840ef79157da2cf714101d7efee7c937541105a31b9385f7a41181aaeb6ae2982411c01af6535e4cb41186bbeede9304c410be74d39c35d10,
  0x4116e4747fe2e6e4413c621975d28bc7415869bb4ffe68d14170cf214d84d1114183a396ffada0984194172e84ffb91741a259dadc169b0a41ae548e9905fd6441b6e3b37aefc77a41bfc3f5d9f6fbd341c45e827221d25441c83b5e0f0cd4ed41cad092715db80d41cba7f44800000041ca9eb14bfb130341c7edf3fb58380541c417e5b20b96cc41bf8294a29e747e41b70d375303447e41af6cceeaf6329a41a3eb53f4de0fc541976c3efd6f0ec24189769b514a691041797c45c924920e41675c954db6db3741537c26b669e9ff413d5457c75c50cf4123b521d7cc9d154107517b1da71a6b40e7d76709d399f840c484f8f5399d16409c9a56a2f99a7a406e56834255e3914035d142b6dbadc53ff0000000000000403554aaa7ffeaa9406bb59d310a1ed340974ad84f3484e940bc60d3f3e2bfff40da95534cdf8def40f3d063db14834c4107f9fb318be7c34117c9d6e65814f7412360cf490896b04129b541fe166ced412b2792be4827ed4125b46dd291f26b4116e4747fe2e6e4,
  0x4121d66e07ca36704145772db3811c284161e74bb41edc654177e23e336a7001418b012d13259c00419ab4621159c3ab41a78d1f879f75fd41b2c47c8a26218141bb470d8da2356941c23318ef183dd241c66828e11f3a9641c98b9c37c5243841cb0a0464af806341ca9eb14bfb130341c86704b800000041c4d6de8e592a6c41c093dcd299a04f41b88d6dd0ff97e141b0e7b570b8d6e541a59aff6bd8ea4c4199905d624dd672418be9c650c3cdf9417c02b763ddd2c24169b2deb6bad0c841556a6442f103524140135e1e9a05334125824f2efea69841094acfa741e14740e9a6a832dece0b40c5dafada3fe898409e18a08ef11043406f76da19a7630c40363fa3f3c029613ff00000000000004035d142b6dbadc5406d161ae2ba4ba9409930841fadb93040bfc2deb06efd2240def4fddd2d605b40f82a71d3307fd0410ee0bfbdac9f49412058d785b7ddb7412cd55e05414fce4135239ac042e08441397ea3fdd3f66f4138af64801b0917413236936200f11a4121d66e07ca3670,
  0x412a751c269e6fcb414edfad511b222b4168f21e567b38cd41801a38c5f8e9d441919980124d8c5541a0cdd0e2de3c8741ac94b382b740e441b5ee95f832dd4141bea69f49f4f12d41c3a1dc4b0d801f41c729e340dd139b41c9428a274802f441c9858d5ea4d41741c7edf3fb58380541c4d6de8e592a6c41c0dc1f3000000041b95569b3cea83d41b1a824f57668ee41a6cb7b35ce16c8419b30cbcdc11eca418ddfd493e04537417e1c49d9c92270416bb298180b820f415719f6dd0bf5654141537925c8f80c41271f1aca9c8748410b11b9be7af0e640eb4881c136c1ec40c70efc55ddf7fa409f6f387bbedf6640703b911e4e25164036a09e667f3bcc3ff000000000000040363fa3f3c02961406e56834255e391409af6b95e9d3ac840c1837368e67daf40e1aa82c836cd4440fcb2a9f4c81549411333b4265bd3dc412577ec7fe8e3f84134349a5ec08430414009a058f2daf1414560c1279a47ef4147a25b962f67b741451f99b074ba6b413cf1b27c097008412a751c269e6fcb,
  0x4132b54fde477fad415526186ab68c2e417089703f99bcbd4184a32ad958e8024195c745aba2c59941a40d1c475f499641b06b9f5234fce941b83b4caeac34d641c0414cc21f3c7b41c3f49dc7c1356841c685767613fbe941c77173707a41d741c68ee61b58a80041c417e5b20b96cc41c093dcd299a04f41b95569b3cea83d41b1e9e12300000041a768ebdf9890c8419c350a28cd02ab418f3e4adecf2444417fafbfc41b1d3b416d468d3c43635541587b424c681eca41426087a10a53a4412880b4d6b86f85410c9c84b08f0e2b40ecb6157ad93eb740c81d7d7dbff7cd40a04e0a8c8f4b2e4070abaee6ff415a4036f4dbe9105e513ff00000000000004036a09e667f3bcc406f76da19a7630c409c9a56a2f99a7a40c310f68876122840e3d072107be4f64100a7dd380da30b41173100402964ae412b27dad7d322ff413afccf1421c4b34146dc21dbe6ec9c41507eb6eb542d79415427c32eeeeab2415491898808e0664151120041a6f4604145d4be5da3a97a4132b54fde477fad,
  0x413943659c174e26415ba3403f6fe4a64174e3eeccb15c5e41892bdff2de717041999d4ac555345341a6b5a59b321d0d41b1e1d10f3bcdd141b9554782574ba141c0493045be9dfe41c31fc41ee02e3a41c49a18f7ed6c8d41c46c8bd23f60ae41c2ab9cc393833a41bf8294a29e747e41b88d6dd0ff97e141b1a824f57668ee41a768ebdf9890c8419c8d8fa8000000418ff2639ff9c31f418054eedfe44437416e5dc602fda2324159815b22809a174143321c0ef6ebeb41299dd757a5a650410de2d090ebecb340ede976f6d15a4140c9037e6181a81b40a0cebe49a0827440710bc736c5c9ce40373ce704fb7b233ff00000000000004036f4dbe9105e5140703b911e4e2516409e18a08ef1104340c484f8f5399d1640e5e27c942377164102f3e54fe9d56e411b4faa510ca3584130a3252e480ea14141510f14f96e9e414efa18cc0d93934157da8fd4eb4c38415f8e38d5087eaf4161cbc4c92e722b4160dd14249a11fd415a1ffd525fdcdb414f529e25c31434413943659c174e26,
  0x41404eafcf41abbe41613ed1d7d3430441792bdff2de7170418d3f1b1e91e7b7419ca8b437d5422141a86e7cfc87c98c41b277f2dda15b5741b912e2bda582da41bed62f8558ee4c41c14848e86f811341c1bb386dc3768a41c0b303e7da921341bcec8b2b2bd5dc41b70d375303447e41b0e7b570b8d6e541a6cb7b35ce16c8419c350a28cd02ab418ff2639ff9c31f41807f4d50000000416eec6c65b7c2c1415a2299543d3c4a4143c19e0e54ebdc412a6f0705d88e34410eddba3a96e78640eeddba3a96e78640c9be7f0c5f265240a138fff89163cd40715bdaabbd22974037793008ab5d3e3ff000000000000040373ce704fb7b234070abaee6ff415a409f6f387bbedf6640c5dafada3fe89840e7d76709d399f841053095988e77ac411f756b4fef47b34133d53cf4ef1d6f41457a88696031e041541ebfbeb5eb1541605c278e15dd7a416718a7303c8c1f416c34090401ed6a416d89e4878a38b6416a1ffd525fdcdb4162f8b6a92d543c4155687740e2f21741404eafcf41abbe,
  0x41442594d7e7c1004164922c8a8fdcb2417cf3fe762064794190327fa9229ca5419e85da399c892541a8facdc350f45541b2189991d254e641b77ffb60b93ee041bb96603b439b9641bd733c19aebf3541bcb4564acf4da141b99c624278ea7e41b4f28d0060c11341af6cceeaf6329a41a59aff6bd8ea4c419b30cbcdc11eca418f3e4adecf2444418054eedfe44437416eec6c65b7c2c1415a59050000000041440a86151b3689412aeec69e64623b410f87fb511fdfcd40ef8eff6dfc61ec40ca4c7f8652519a40a18c3bb9641a9a40719be9bd2994d54037aa10d193c22c3ff00000000000004037793008ab5d3e40710bc736c5c9ce40a04e0a8c8f4b2e40c70efc55ddf7fa40e9a6a832dece0b4107517b1da71a6b4121c39ee6c604f14137138857e1062b4149dd1c3f97106a41593575c842fb66416577b4c844429a41700041edce9c014174da13c291e5f84177a4cf830b8bef41771cc666d0540b417329ee4024432f416a3216fd297f79415beaf34e5586f141442594d7e7c100,
  0x4147d6885aa3f49f4167787c10808c52417fcf8fcdc68e2c41911c89eb46a3d4419ef4b158fe6a8b41a84748f25f341741b0d2c9a370db7b41b4daa7850948cb41b750cc0b1383cd41b7a539bbea21a741b5d56e36156c9a41b265fb7a3a9de041ac537dffa647b341a3eb53f4de0fc54199905d624dd672418ddfd493e04537417fafbfc41b1d3b416e5dc602fda232415a2299543d3c4a41440a86151b3689412b19bc00000000410fde02414140fe40effa7bce8738e840caabffd4cef58340a1c7ffe334a3ad4071cbf4c3139a1a4037cfcf9f0d58063ff00000000000004037aa10d193c22c40715bdaabbd229740a0cebe49a0827440c81d7d7dbff7cd40eb4881c136c1ec41094acfa741e1474123b521d7cc9d15413a4605905ede55414e568a79935c8d415e9a3412c01edb416b1dab82296f3e41752ad6e1106f62417d208cb663663441819f7fa757fee64182a6857970e169418117839da9cacc417aad25c80f9a5141713832209e88c4416162bab6e3f62a4147d6885aa3f49f,
  0x414b079f20a7caa24169a0a606bfd9e44180b2f7d439911541913f2b05525f9f419de688a1bba93d41a66e622f4124a541adac759a02950041b1840c5663d07f41b29aa701e7fc7141b1dfcef2a6c05641af2cf4e393a60941a8b99f0d87cb6d41a1d802bd5c955241976c3efd6f0ec2418be9c650c3cdf9417e1c49d9c92270416d468d3c4363554159815b22809a174143c19e0e54ebdc412aeec69e64623b410fde02414140fe40f00f400000000040cadbfffb3c042b40a1ebfbfb88cfe84071ebfbfb88cfe84037eaa126f152833ff00000000000004037cfcf9f0d580640719be9bd2994d540a138fff89163cd40c9037e6181a81b40ecb6157ad93eb7410b11b9be7af0e64125824f2efea698413d5457c75c50cf415160d85f60d8a941620f6024989d7e41708faf9ff3c5af417ae73982454110418362c6077f3d014188c5330e762577418bf9c83629521d418bc19c412a97de4187f0bf3f9175b14181a50e79a1130f41759492faa10a434164b2fc408743ae414b079f20a7caa2,
  0x414d626bf7c14d10416ac9dcc672693c4180c1e3b5173515419095f8aabdc0d0419b81259d13fa1441a3b21f9b73649b41a8d07a7c7afa7441abd48624e8fdeb41ac00e9fb1ad82f41a969057db4d6fc41a4db357db7607b419f03a492579a6d4194e3f28adff4654189769b514a6910417c02b763ddd2c2416bb298180b820f41587b424c681eca4143321c0ef6ebeb412a6f0705d88e34410f87fb511fdfcd40effa7bce8738e840cadbfffb3c042b40a1f800000000004071fbff8e1f93d54037faaa12d4c51c3ff00000000000004037eaa126f152834071cbf4c3139a1a40a18c3bb9641a9a40c9be7f0c5f265240ede976f6d15a41410c9c84b08f0e2b41271f1aca9c87484140135e1e9a053341537c26b669e9ff4164c80b8b7c64a64173a2239e1682b4418080f0730ffe6e4188bf5342c6621341908f029006f80a4193bf507deb38d94194e8a751bca8bd4193864766e62567418fcf3d4f43a01c418635e8d2d608e14179ce6e078504f3416792eb3dfe4820414d626bf7c14d10,
  0x414ea2aab47e6383416acfd2bb5854ef418012b7aa44a58a418e6f0bfc3a48434198165bcf1f4cad41a06d6bf33c9ef641a3a96aa86a98a741a4e40993c0f1aa41a3da64fb3d679741a0f4734a778cb5419a17cfe950537841921b7be373f2344186a6a53c3ecd1141797c45c924920e4169b2deb6bad0c8415719f6dd0bf56541426087a10a53a441299dd757a5a650410eddba3a96e78640ef8eff6dfc61ec40caabffd4cef58340a1ebfbfb88cfe84071fbff8e1f93d540380000000000003ff00000000000004037faaa12d4c51c4071ebfbfb88cfe840a1c7ffe334a3ad40ca4c7f8652519a40eeddba3a96e786410de2d090ebecb3412880b4d6b86f854141537925c8f80c41556a6442f1035241675c954db6db374176a6a53c3ecd1141839dc636684663418e711d3addb6b7419531901d156fe3419a7886a451df75419d9862e6a6abb1419d7e1ffc9fe4fb419a029596755106419412a1d744bfe5418aa12a7cb2ff3b417d77a60d7dda284169b1d49e34a6ba414ea2aab47e6383,
  0x414ea2aab47e63834169b1d49e34a6ba417d77a60d7dda28418aa12a7cb2ff3b419412a1d744bfe5419a029596755106419d7e1ffc9fe4fb419d9862e6a6abb1419a7886a451df75419531901d156fe3418e711d3addb6b741839dc6366846634176a6a53c3ecd1141675c954db6db3741556a6442f103524141537925c8f80c412880b4d6b86f85410de2d090ebecb340eeddba3a96e78640ca4c7f8652519a40a1c7ffe334a3ad4071ebfbfb88cfe84037faaa12d4c51c3ff000000000000040380000000000004071fbff8e1f93d540a1ebfbfb88cfe840caabffd4cef58340ef8eff6dfc61ec410eddba3a96e78641299dd757a5a65041426087a10a53a4415719f6dd0bf5654169b2deb6bad0c841797c45c924920e4186a6a53c3ecd1141921b7be373f234419a17cfe950537841a0f4734a778cb541a3da64fb3d679741a4e40993c0f1aa41a3a96aa86a98a741a06d6bf33c9ef64198165bcf1f4cad418e6f0bfc3a4843418012b7aa44a58a416acfd2bb5854ef414ea2aab47e6383,
  0x414d626bf7c14d10416792eb3dfe48204179ce6e078504f3418635e8d2d608e1418fcf3d4f43a01c4193864766e625674194e8a751bca8bd4193bf507deb38d941908f029006f80a4188bf5342c66213418080f0730ffe6e4173a2239e1682b44164c80b8b7c64a641537c26b669e9ff4140135e1e9a053341271f1aca9c8748410c9c84b08f0e2b40ede976f6d15a4140c9be7f0c5f265240a18c3bb9641a9a4071cbf4c3139a1a4037eaa126f152833ff00000000000004037faaa12d4c51c4071fbff8e1f93d540a1f8000000000040cadbfffb3c042b40effa7bce8738e8410f87fb511fdfcd412a6f0705d88e344143321c0ef6ebeb41587b424c681eca416bb298180b820f417c02b763ddd2c24189769b514a69104194e3f28adff465419f03a492579a6d41a4db357db7607b41a969057db4d6fc41ac00e9fb1ad82f41abd48624e8fdeb41a8d07a7c7afa7441a3b21f9b73649b419b81259d13fa14419095f8aabdc0d04180c1e3b5173515416ac9dcc672693c414d626bf7c14d10,
  0x414b079f20a7caa24164b2fc408743ae41759492faa10a434181a50e79a1130f4187f0bf3f9175b1418bc19c412a97de418bf9c83629521d4188c5330e762577418362c6077f3d01417ae7398245411041708faf9ff3c5af41620f6024989d7e415160d85f60d8a9413d5457c75c50cf4125824f2efea698410b11b9be7af0e640ecb6157ad93eb740c9037e6181a81b40a138fff89163cd40719be9bd2994d54037cfcf9f0d58063ff00000000000004037eaa126f152834071ebfbfb88cfe840a1ebfbfb88cfe840cadbfffb3c042b40f00f4000000000410fde02414140fe412aeec69e64623b4143c19e0e54ebdc4159815b22809a17416d468d3c436355417e1c49d9c92270418be9c650c3cdf941976c3efd6f0ec241a1d802bd5c955241a8b99f0d87cb6d41af2cf4e393a60941b1dfcef2a6c05641b29aa701e7fc7141b1840c5663d07f41adac759a02950041a66e622f4124a5419de688a1bba93d41913f2b05525f9f4180b2f7d43991154169a0a606bfd9e4414b079f20a7caa2,
  0x4147d6885aa3f49f416162bab6e3f62a41713832209e88c4417aad25c80f9a51418117839da9cacc4182a6857970e16941819f7fa757fee6417d208cb663663441752ad6e1106f62416b1dab82296f3e415e9a3412c01edb414e568a79935c8d413a4605905ede554123b521d7cc9d1541094acfa741e14740eb4881c136c1ec40c81d7d7dbff7cd40a0cebe49a0827440715bdaabbd22974037aa10d193c22c3ff00000000000004037cfcf9f0d58064071cbf4c3139a1a40a1c7ffe334a3ad40caabffd4cef58340effa7bce8738e8410fde02414140fe412b19bc0000000041440a86151b3689415a2299543d3c4a416e5dc602fda232417fafbfc41b1d3b418ddfd493e045374199905d624dd67241a3eb53f4de0fc541ac537dffa647b341b265fb7a3a9de041b5d56e36156c9a41b7a539bbea21a741b750cc0b1383cd41b4daa7850948cb41b0d2c9a370db7b41a84748f25f3417419ef4b158fe6a8b41911c89eb46a3d4417fcf8fcdc68e2c4167787c10808c524147d6885aa3f49f,
  0x41442594d7e7c100415beaf34e5586f1416a3216fd297f79417329ee4024432f41771cc666d0540b4177a4cf830b8bef4174da13c291e5f841700041edce9c01416577b4c844429a41593575c842fb664149dd1c3f97106a4137138857e1062b4121c39ee6c604f14107517b1da71a6b40e9a6a832dece0b40c70efc55ddf7fa40a04e0a8c8f4b2e40710bc736c5c9ce4037793008ab5d3e3ff00000000000004037aa10d193c22c40719be9bd2994d540a18c3bb9641a9a40ca4c7f8652519a40ef8eff6dfc61ec410f87fb511fdfcd412aeec69e64623b41440a86151b3689415a590500000000416eec6c65b7c2c1418054eedfe44437418f3e4adecf2444419b30cbcdc11eca41a59aff6bd8ea4c41af6cceeaf6329a41b4f28d0060c11341b99c624278ea7e41bcb4564acf4da141bd733c19aebf3541bb96603b439b9641b77ffb60b93ee041b2189991d254e641a8facdc350f455419e85da399c89254190327fa9229ca5417cf3fe762064794164922c8a8fdcb241442594d7e7c100,
  0x41404eafcf41abbe4155687740e2f2174162f8b6a92d543c416a1ffd525fdcdb416d89e4878a38b6416c34090401ed6a416718a7303c8c1f41605c278e15dd7a41541ebfbeb5eb1541457a88696031e04133d53cf4ef1d6f411f756b4fef47b341053095988e77ac40e7d76709d399f840c5dafada3fe898409f6f387bbedf664070abaee6ff415a40373ce704fb7b233ff00000000000004037793008ab5d3e40715bdaabbd229740a138fff89163cd40c9be7f0c5f265240eeddba3a96e786410eddba3a96e786412a6f0705d88e344143c19e0e54ebdc415a2299543d3c4a416eec6c65b7c2c141807f4d50000000418ff2639ff9c31f419c350a28cd02ab41a6cb7b35ce16c841b0e7b570b8d6e541b70d375303447e41bcec8b2b2bd5dc41c0b303e7da921341c1bb386dc3768a41c14848e86f811341bed62f8558ee4c41b912e2bda582da41b277f2dda15b5741a86e7cfc87c98c419ca8b437d54221418d3f1b1e91e7b741792bdff2de717041613ed1d7d3430441404eafcf41abbe,
  0x413943659c174e26414f529e25c31434415a1ffd525fdcdb4160dd14249a11fd4161cbc4c92e722b415f8e38d5087eaf4157da8fd4eb4c38414efa18cc0d93934141510f14f96e9e4130a3252e480ea1411b4faa510ca3584102f3e54fe9d56e40e5e27c9423771640c484f8f5399d16409e18a08ef1104340703b911e4e25164036f4dbe9105e513ff000000000000040373ce704fb7b2340710bc736c5c9ce40a0cebe49a0827440c9037e6181a81b40ede976f6d15a41410de2d090ebecb341299dd757a5a6504143321c0ef6ebeb4159815b22809a17416e5dc602fda232418054eedfe44437418ff2639ff9c31f419c8d8fa800000041a768ebdf9890c841b1a824f57668ee41b88d6dd0ff97e141bf8294a29e747e41c2ab9cc393833a41c46c8bd23f60ae41c49a18f7ed6c8d41c31fc41ee02e3a41c0493045be9dfe41b9554782574ba141b1e1d10f3bcdd141a6b5a59b321d0d41999d4ac555345341892bdff2de71704174e3eeccb15c5e415ba3403f6fe4a6413943659c174e26,
  0x4132b54fde477fad4145d4be5da3a97a4151120041a6f460415491898808e066415427c32eeeeab241507eb6eb542d794146dc21dbe6ec9c413afccf1421c4b3412b27dad7d322ff41173100402964ae4100a7dd380da30b40e3d072107be4f640c310f688761228409c9a56a2f99a7a406f76da19a7630c4036a09e667f3bcc3ff00000000000004036f4dbe9105e514070abaee6ff415a40a04e0a8c8f4b2e40c81d7d7dbff7cd40ecb6157ad93eb7410c9c84b08f0e2b412880b4d6b86f8541426087a10a53a441587b424c681eca416d468d3c436355417fafbfc41b1d3b418f3e4adecf2444419c350a28cd02ab41a768ebdf9890c841b1e9e12300000041b95569b3cea83d41c093dcd299a04f41c417e5b20b96cc41c68ee61b58a80041c77173707a41d741c685767613fbe941c3f49dc7c1356841c0414cc21f3c7b41b83b4caeac34d641b06b9f5234fce941a40d1c475f49964195c745aba2c5994184a32ad958e802417089703f99bcbd415526186ab68c2e4132b54fde477fad,
  0x412a751c269e6fcb413cf1b27c09700841451f99b074ba6b4147a25b962f67b7414560c1279a47ef414009a058f2daf14134349a5ec08430412577ec7fe8e3f8411333b4265bd3dc40fcb2a9f4c8154940e1aa82c836cd4440c1837368e67daf409af6b95e9d3ac8406e56834255e39140363fa3f3c029613ff00000000000004036a09e667f3bcc40703b911e4e2516409f6f387bbedf6640c70efc55ddf7fa40eb4881c136c1ec410b11b9be7af0e641271f1aca9c87484141537925c8f80c415719f6dd0bf565416bb298180b820f417e1c49d9c92270418ddfd493e04537419b30cbcdc11eca41a6cb7b35ce16c841b1a824f57668ee41b95569b3cea83d41c0dc1f3000000041c4d6de8e592a6c41c7edf3fb58380541c9858d5ea4d41741c9428a274802f441c729e340dd139b41c3a1dc4b0d801f41bea69f49f4f12d41b5ee95f832dd4141ac94b382b740e441a0cdd0e2de3c8741919980124d8c5541801a38c5f8e9d44168f21e567b38cd414edfad511b222b412a751c269e6fcb,
  0x4121d66e07ca3670413236936200f11a4138af64801b091741397ea3fdd3f66f4135239ac042e084412cd55e05414fce412058d785b7ddb7410ee0bfbdac9f4940f82a71d3307fd040def4fddd2d605b40bfc2deb06efd22409930841fadb930406d161ae2ba4ba94035d142b6dbadc53ff000000000000040363fa3f3c02961406f76da19a7630c409e18a08ef1104340c5dafada3fe89840e9a6a832dece0b41094acfa741e1474125824f2efea6984140135e1e9a053341556a6442f103524169b2deb6bad0c8417c02b763ddd2c2418be9c650c3cdf94199905d624dd67241a59aff6bd8ea4c41b0e7b570b8d6e541b88d6dd0ff97e141c093dcd299a04f41c4d6de8e592a6c41c86704b800000041ca9eb14bfb130341cb0a0464af806341c98b9c37c5243841c66828e11f3a9641c23318ef183dd241bb470d8da2356941b2c47c8a26218141a78d1f879f75fd419ab4621159c3ab418b012d13259c004177e23e336a70014161e74bb41edc654145772db3811c284121d66e07ca3670,
  0x4116e4747fe2e6e44125b46dd291f26b412b2792be4827ed4129b541fe166ced412360cf490896b04117c9d6e65814f74107f9fb318be7c340f3d063db14834c40da95534cdf8def40bc60d3f3e2bfff40974ad84f3484e9406bb59d310a1ed3403554aaa7ffeaa93ff00000000000004035d142b6dbadc5406e56834255e391409c9a56a2f99a7a40c484f8f5399d1640e7d76709d399f84107517b1da71a6b4123b521d7cc9d15413d5457c75c50cf41537c26b669e9ff41675c954db6db3741797c45c924920e4189769b514a691041976c3efd6f0ec241a3eb53f4de0fc541af6cceeaf6329a41b70d375303447e41bf8294a29e747e41c417e5b20b96cc41c7edf3fb58380541ca9eb14bfb130341cba7f44800000041cad092715db80d41c83b5e0f0cd4ed41c45e827221d25441bfc3f5d9f6fbd341b6e3b37aefc77a41ae548e9905fd6441a259dadc169b0a4194172e84ffb9174183a396ffada0984170cf214d84d111415869bb4ffe68d1413c621975d28bc74116e4747fe2e6e4,
  0x410be74d39c35d1041186bbeede9304c411c01af6535e4cb41181aaeb6ae298241105a31b9385f7a4101d7efee7c937540ef79157da2cf7140d64b22b256210840b8ecc5815b51894095494943dd6d5d406a35050489f4ad4034c8dc2e42397f3ff0000000000000403554aaa7ffeaa9406d161ae2ba4ba9409af6b95e9d3ac840c310f68876122840e5e27c9423771641053095988e77ac4121c39ee6c604f1413a4605905ede55415160d85f60d8a94164c80b8b7c64a64176a6a53c3ecd114186a6a53c3ecd114194e3f28adff46541a1d802bd5c955241ac537dffa647b341b4f28d0060c11341bcec8b2b2bd5dc41c2ab9cc393833a41c68ee61b58a80041c9858d5ea4d41741cb0a0464af806341cad092715db80d41c8de5cac00000041c5896e64844eb241c1612bee83b8d441ba0f902c900b2a41b2155273b9fbc741a71b217a7edf46419afef159ae3bc4418c91dab783af35417b06d94b044878416668ce6dd5ea97414f8f7987df28214131ce908d7a088d410be74d39c35d10,
  0x41001c2fe843d0764109d951da76d9c8410af30861b3aaa54104dff7c08fffd640f92d115134a1d840e809b3133cb46540d22bc27441b57640b573b1982535cd40932feb91e2c7314068944b2fe2ed7240342c9b0eec7da33ff00000000000004034c8dc2e42397f406bb59d310a1ed3409930841fadb93040c1837368e67daf40e3d072107be4f64102f3e54fe9d56e411f756b4fef47b34137138857e1062b414e568a79935c8d41620f6024989d7e4173a2239e1682b441839dc63668466341921b7be373f234419f03a492579a6d41a8b99f0d87cb6d41b265fb7a3a9de041b99c624278ea7e41c0b303e7da921341c46c8bd23f60ae41c77173707a41d741c9428a274802f441c98b9c37c5243841c83b5e0f0cd4ed41c5896e64844eb241c1e7c7d800000041bbc96846f3035b41b40fc590213d6341aad8c2ca05a0da41a08f6ff913b9a94192b40aa6a9a247418327bab3545fc041718dec931f32d9415c3a807bab742541434b148bc388b64125262bb2be551841001c2fe843d076,
  0x40f1916c8fb5f34c40f9a02acfdc3c9f40f80b809eae9f9c40f08e4018a4e5e140e17894fd84a23840cc98a9547e731440b203954f5cd7c84091036911d646554066d3657220f6bc40337e5bd40f95a13ff000000000000040342c9b0eec7da3406a35050489f4ad40974ad84f3484e940bfc2deb06efd2240e1aa82c836cd444100a7dd380da30b411b4faa510ca3584133d53cf4ef1d6f4149dd1c3f97106a415e9a3412c01edb41708faf9ff3c5af418080f0730ffe6e418e711d3addb6b7419a17cfe950537841a4db357db7607b41af2cf4e393a60941b5d56e36156c9a41bcb4564acf4da141c1bb386dc3768a41c49a18f7ed6c8d41c685767613fbe941c729e340dd139b41c66828e11f3a9641c45e827221d25441c1612bee83b8d441bbc96846f3035b41b4c3189800000041ace8bc47f4b63641a2ad20f7c8e129419645d42af3e109418857f138ff83ce4178271044552cc2416576a30973714a4150bfead8eed49241363dd6f92e53a34117b42799deeb4640f1916c8fb5f34c,
  0x40e206427de9710240e7a987d627e84e40e3bc546cbf8e3040d7c7b1c39e421040c58286d9fd5fe540ad56d7151f5a41408d92371f3ff1194064f244a73c38c84032bc2891041ea73ff000000000000040337e5bd40f95a14068944b2fe2ed724095494943dd6d5d40bc60d3f3e2bfff40def4fddd2d605b40fcb2a9f4c8154941173100402964ae4130a3252e480ea141457a88696031e041593575c842fb66416b1dab82296f3e417ae739824541104188bf5342c66213419531901d156fe341a0f4734a778cb541a969057db4d6fc41b1dfcef2a6c05641b7a539bbea21a741bd733c19aebf3541c14848e86f811341c31fc41ee02e3a41c3f49dc7c1356841c3a1dc4b0d801f41c23318ef183dd241bfc3f5d9f6fbd341ba0f902c900b2a41b40fc590213d6341ace8bc47f4b63641a36eb8700000004198456c8234cd33418c02e8f5dc600d417da8aeb6212f2d416c88dab9bb0e2241589c9976ecd44f4142a864e6e906b04128164c5f6475184108fa0f620dae1940e206427de97102,
  0x40d1513cc33c75c540d4353ba7f6b98840cd7edb07558e4340be767d77dde2de40a6f65545d9566040890e62431950d84062f0d1837fca144031e3779b97f4a73ff00000000000004032bc2891041ea74066d3657220f6bc40932feb91e2c73140b8ecc5815b518940da95534cdf8def40f82a71d3307fd0411333b4265bd3dc412b27dad7d322ff4141510f14f96e9e41541ebfbeb5eb15416577b4c844429a41752ad6e1106f62418362c6077f3d0141908f029006f80a419a7886a451df7541a3da64fb3d679741ac00e9fb1ad82f41b29aa701e7fc7141b750cc0b1383cd41bb96603b439b9641bed62f8558ee4c41c0493045be9dfe41c0414cc21f3c7b41bea69f49f4f12d41bb470d8da2356941b6e3b37aefc77a41b2155273b9fbc741aad8c2ca05a0da41a2ad20f7c8e1294198456c8234cd33418d56392000000041806657a58462db4170d6924fa60a00415f72606cec66c9414a593d575ffc5341336b6dbbf789e44118649ffeec2f1540f8a0e0b4b4b21d40d1513cc33c75c5,
  0x40befa6a836271bf40bfa163f82c9ce540b3c94495bfd02640a1077d0e795c0c408489bdaf8a0a2c4060cee644d0ff584030f0ea3f9397ce3ff00000000000004031e3779b97f4a74064f244a73c38c84091036911d6465540b573b1982535cd40d64b22b256210840f3d063db14834c410ee0bfbdac9f49412577ec7fe8e3f8413afccf1421c4b3414efa18cc0d939341605c278e15dd7a41700041edce9c01417d208cb66366344188c5330e7625774193bf507deb38d9419d9862e6a6abb141a4e40993c0f1aa41abd48624e8fdeb41b1840c5663d07f41b4daa7850948cb41b77ffb60b93ee041b912e2bda582da41b9554782574ba141b83b4caeac34d641b5ee95f832dd4141b2c47c8a26218141ae548e9905fd6441a71b217a7edf4641a08f6ff913b9a9419645d42af3e109418c02e8f5dc600d41806657a58462db4171c7a6800000004161b7df969f3ea84150128ebe49504f413a2f79180ebf2f4122c71d536388ed4106f7542dd0ed0740e697d9b144701140befa6a836271bf,
  0x40a999a5b0c9f1e340a667afa9bf3da540975bddc08b483440801551cbd3659a405d1882e1fa52df402fbfbf7ebc755e3ff00000000000004030f0ea3f9397ce4062f0d1837fca14408d92371f3ff11940b203954f5cd7c840d22bc27441b57640ef79157da2cf714107f9fb318be7c3412058d785b7ddb74134349a5ec084304146dc21dbe6ec9c4157da8fd4eb4c38416718a7303c8c1f4174da13c291e5f841819f7fa757fee6418bf9c83629521d4194e8a751bca8bd419d7e1ffc9fe4fb41a3a96aa86a98a741a8d07a7c7afa7441adac759a02950041b0d2c9a370db7b41b2189991d254e641b277f2dda15b5741b1e1d10f3bcdd141b06b9f5234fce941ac94b382b740e441a78d1f879f75fd41a259dadc169b0a419afef159ae3bc44192b40aa6a9a247418857f138ff83ce417da8aeb6212f2d4170d6924fa60a004161b7df969f3ea84151270100000000413e4100bdb2c71a4127fa98b2dc9d174110be31a6af914440f3f3cd69cc4dac40d3233b60fe04a740a999a5b0c9f1e3,
  0x40935a1775de247a408c3a490ce1748840778b237ce6a7b1405850cd5031294c402d5364c8cb8f863ff0000000000000402fbfbf7ebc755e4060cee644d0ff5840890e62431950d840ad56d7151f5a4140cc98a9547e731440e809b3133cb4654101d7efee7c93754117c9d6e65814f7412cd55e05414fce414009a058f2daf141507eb6eb542d79415f8e38d5087eaf416c34090401ed6a4177a4cf830b8bef4182a6857970e169418bc19c412a97de4193864766e62567419a02959675510641a06d6bf33c9ef641a3b21f9b73649b41a66e622f4124a541a84748f25f341741a8facdc350f45541a86e7cfc87c98c41a6b5a59b321d0d41a40d1c475f499641a0cdd0e2de3c87419ab4621159c3ab4194172e84ffb917418c91dab783af35418327bab3545fc04178271044552cc2416c88dab9bb0e22415f72606cec66c94150128ebe49504f413e4100bdb2c71a4129f5d800000000411408ccc63d30d940fb42962ce71d4c40dfac628ad4b3ff40bda39980b9872940935a1775de247a,
  0x407a65532d989896406ecd41d33eeffd40534491be50521a402a887293fd6f343ff0000000000000402d5364c8cb8f86405d1882e1fa52df408489bdaf8a0a2c40a6f65545d9566040c58286d9fd5fe540e17894fd84a23840f92d115134a1d841105a31b9385f7a412360cf490896b04135239ac042e084414560c1279a47ef415427c32eeeeab24161cbc4c92e722b416d89e4878a38b641771cc666d0540b418117839da9cacc4187f0bf3f9175b1418fcf3d4f43a01c419412a1d744bfe54198165bcf1f4cad419b81259d13fa14419de688a1bba93d419ef4b158fe6a8b419e85da399c8925419ca8b437d5422141999d4ac55534534195c745aba2c59941919980124d8c55418b012d13259c004183a396ffada098417b06d94b04487841718dec931f32d9416576a30973714a41589c9976ecd44f414a593d575ffc53413a2f79180ebf2f4127fa98b2dc9d17411408ccc63d30d940fe21200000000040e3fc4eede0a14740c6a79f5cc4708840a4b1e839ee493e407a65532d989896,
  0x405fd5a3f6af6b74404bdc7bc29f939340273ce704fb7b233ff0000000000000402a887293fd6f34405850cd5031294c40801551cbd3659a40a1077d0e795c0c40be767d77dde2de40d7c7b1c39e421040f08e4018a4e5e14104dff7c08fffd641181aaeb6ae29824129b541fe166ced41397ea3fdd3f66f4147a25b962f67b7415491898808e0664160dd14249a11fd416a1ffd525fdcdb417329ee4024432f417aad25c80f9a514181a50e79a1130f418635e8d2d608e1418aa12a7cb2ff3b418e6f0bfc3a4843419095f8aabdc0d041913f2b05525f9f41911c89eb46a3d44190327fa9229ca5418d3f1b1e91e7b741892bdff2de71704184a32ad958e80241801a38c5f8e9d44177e23e336a70014170cf214d84d111416668ce6dd5ea97415c3a807bab74254150bfead8eed4924142a864e6e906b041336b6dbbf789e44122c71d536388ed4110be31a6af914440fb42962ce71d4c40e3fc4eede0a14740c9de000000000040ac9faf3acdc45840898a1c1d124746405fd5a3f6af6b74,
  0x40407074ccbc86db40232eee757704163ff000000000000040273ce704fb7b2340534491be50521a40778b237ce6a7b140975bddc08b483440b3c94495bfd02640cd7edb07558e4340e3bc546cbf8e3040f80b809eae9f9c410af30861b3aaa5411c01af6535e4cb412b2792be4827ed4138af64801b091741451f99b074ba6b4151120041a6f460415a1ffd525fdcdb4162f8b6a92d543c416a3216fd297f7941713832209e88c441759492faa10a434179ce6e078504f3417d77a60d7dda28418012b7aa44a58a4180c1e3b51735154180b2f7d4399115417fcf8fcdc68e2c417cf3fe7620647941792bdff2de71704174e3eeccb15c5e417089703f99bcbd4168f21e567b38cd4161e74bb41edc65415869bb4ffe68d1414f8f7987df282141434b148bc388b641363dd6f92e53a34128164c5f6475184118649ffeec2f154106f7542dd0ed0740f3f3cd69cc4dac40dfac628ad4b3ff40c6a79f5cc4708840ac9faf3acdc458408ef00000000000406af9ff552f5dbf40407074ccbc86db,
  0x401b6c30b83593e63ff000000000000040232eee75770416404bdc7bc29f9393406ecd41d33eeffd408c3a490ce1748840a667afa9bf3da540bfa163f82c9ce540d4353ba7f6b98840e7a987d627e84e40f9a02acfdc3c9f4109d951da76d9c841186bbeede9304c4125b46dd291f26b413236936200f11a413cf1b27c0970084145d4be5da3a97a414f529e25c314344155687740e2f217415beaf34e5586f1416162bab6e3f62a4164b2fc408743ae416792eb3dfe48204169b1d49e34a6ba416acfd2bb5854ef416ac9dcc672693c4169a0a606bfd9e44167787c10808c524164922c8a8fdcb241613ed1d7d34304415ba3403f6fe4a6415526186ab68c2e414edfad511b222b4145772db3811c28413c621975d28bc74131ce908d7a088d4125262bb2be55184117b42799deeb464108fa0f620dae1940f8a0e0b4b4b21d40e697d9b144701140d3233b60fe04a740bda39980b9872940a4b1e839ee493e40898a1c1d124746406af9ff552f5dbf4047000000000000401b6c30b83593e6,
  0x3ff0000000000000401b6c30b83593e640407074ccbc86db405fd5a3f6af6b74407a65532d98989640935a1775de247a40a999a5b0c9f1e340befa6a836271bf40d1513cc33c75c540e206427de9710240f1916c8fb5f34c41001c2fe843d076410be74d39c35d104116e4747fe2e6e44121d66e07ca3670412a751c269e6fcb4132b54fde477fad413943659c174e2641404eafcf41abbe41442594d7e7c1004147d6885aa3f49f414b079f20a7caa2414d626bf7c14d10414ea2aab47e6383414ea2aab47e6383414d626bf7c14d10414b079f20a7caa24147d6885aa3f49f41442594d7e7c10041404eafcf41abbe413943659c174e264132b54fde477fad412a751c269e6fcb4121d66e07ca36704116e4747fe2e6e4410be74d39c35d1041001c2fe843d07640f1916c8fb5f34c40e206427de9710240d1513cc33c75c540befa6a836271bf40a999a5b0c9f1e340935a1775de247a407a65532d989896405fd5a3f6af6b7440407074ccbc86db401b6c30b83593e63ff0000000000000]

/-- The coefficients for `2 ell = 48`: one number for each of the 49 values of `mp`, consisting of the doubles for the 49 values of `m`. -/
def wigner48 : List Nat := [
  0x3ff0000000000000401bb67ae8584caa4040caf8960e710d40607074ccbc86db407b91cbb254e15e409472338d194c7340ab5e24c24c048340c0c25e84ddcfc940d2f85e4290874a40e3ff0fc25d1bfe40f3beab14b56bfd41025967ff2cfbad41101c2fe843d076411acf0fef36e8d6412531ba23751627412fe8ad8f63de714136e9af6f46b434413f6fa7613a503f4144a09b82f4a88d4149eb68c31b4bae414f36173d3516e741520514c06fdc6c4153f67aaefdca0e4155398f17d31a9e4155a99a56e886804155398f17d31a9e4153f67aaefdca0e41520514c06fdc6c414f36173d3516e74149eb68c31b4bae4144a09b82f4a88d413f6fa7613a503f4136e9af6f46b434412fe8ad8f63de71412531ba23751627411acf0fef36e8d641101c2fe843d07641025967ff2cfbad40f3beab14b56bfd40e3ff0fc25d1bfe40d2f85e4290874a40c0c25e84ddcfc940ab5e24c24c0483409472338d194c73407b91cbb254e15e40607074ccbc86db4040caf8960e710d401bb67ae8584caa3ff0000000000000,
  0x401bb67ae8584caa4047800000000000406bdfc8e5623758408ab1ae692644cd40a5e2e0b99899df40bfb989b057083f40d4bd0fa04efae540e8cb6e0f049ebc40fb6190502edaf7410c2402bd423f61411b12fef83c8dfc41287f9cdd04e57d4134ed79eb5285cc4140eddd6efa8893414a00a87b67e8d94152ff91be7a506e415a751c269e6fcb4161951e254b5ba74166546cde50d068416b1f9b42c3aa44416f88e450c3c1bd41718e6d126ddce24172ba9f3590742e417325aab0cefe324172c2a20b084c9441719d888e2f12d2416fb1f9bd1bd84e416b4f54558e740a41668659f08bd3874161c5426989059f415acbb5d7942d4a415348b5b54a6485414a751c269e6fcb4141456d38cc491e413569f42964a1a3412926e29641056d411be74d39c35d10410d222252f110e840fc7fc9054d372440e9f9db24dab0a840d5e7a6a68be25f40c0eed487225feb40a7b37f92a367e1408d82eb3ed3efdc406fd5a3f6af6b74404c7942924af40d40236406304453053ff0000000000000401bb67ae8584caa,
  0x4040caf8960e710d406bdfc8e562375840902c000000000040ae493e9661d9a240c84458c67ebde040e12dc8111b57be40f5ecc67aea98f4410992dfc36413c2411b8911500b6895412b92d9e8e446f74139d49e46daaa7b4146bdcea2daa6b04152e31685775aa4415daf11967db0574166204ce4e55609416f5a38d20879b7417526186ab68c2e417b33d29e5f0b1a4180b2a17ba8ef7a4183953f8f43deb74185f46c377eebd141878a572a55a53541882597f85ebf5d4187b2d1e414ba98418640917f4aff5d4183fc59f7d0a0c6418129afc1dcf190417c2b01767c5ca94176122910824d3c41707efb87d0805641677df69c524f27415fd2ec7dd1bc9c4154777277c96ee24148f07ea71260d1413cb676f32ffe7a412f217187e20a40411fa887461d64bc410e0c7a5aa45e2c40fa74866db6137940e56f0acffb088640cfa163f82c9ce540b4f53e3eb86a1a409872258d82733c407859d7d67a1b6b4053b36d6a7b75e340277ea35d632e433ff000000000000040236406304453054040caf8960e710d,
  0x40607074ccbc86db408ab1ae692644cd40ae493e9661d9a240cbb7000000000040e5b0b73f0137fe40fdfa7664d0f1ea4112a9e9614ca07d412539be19b4a6ed413644895f5839d94145b639e86b16524153ca218bb3d9fb4160f05eb5539fd3416b5507c5ffac574174d8b972f0e08e417e22d616fcbd8c4184af16f91d8a3c418b012d13259c004190c9ccb8b582a94193e6549091bd7441968134da5d307141984bbf7db3eaf841990c73be5659a04198aa8bdd05ea9b41973315433454014194d62a44b069134191dd180d58eec3418d384f09c40e0a4186c77eb33835804180e8c3298968744177df3b01b17562416fff14b4ff84dc4164515770c4e39c41586428b6748ce7414b994bb27f4055413d548ea77c24a1412d2671e4461121411af30861b3aaa541070571e3a803b840f2041fff003a9d40d98b3b95b60a1240c027c62046a44440a1d732c18dc19e4080a5d4a1b76a954058dfeb6abd9840402ad5336963eefb3ff000000000000040277ea35d632e43404c7942924af40d40607074ccbc86db,
  0x407b91cbb254e15e40a5e2e0b99899df40c84458c67ebde040e5b0b73f0137fe410092380000000041165834e372a2e4412b206d8a60c0dc413e0f234f3a4605414eb484d5399d6d415d212499f34ed64169d01fdd84d3b8417576a30973714a4180ce9ad2606ff14188dc6a4c94bb404191687b699f5e24419720171dfd3202419d2f86e6d327d041a184bf3f39b69941a406122df812eb41a5ce6509fe8ee641a6a2e876fc1d8141a66778b6d6049a41a524929c62038841a305677da46d2a41a04ea4ffb376a0419aa12a7cb2ff3b4194b0b7e27f14c0418e8fc57cb06a0d41856cff4a8cbbb7417c7811506724b04171e2f4133430d9416533976f8b0b1e4157a25b962f67b74148af64801b091741380c33f484b6824125ba2d9286494b4112140309029f2140fb7457d787480f40e2ccbeb7e94be740c6d8de19e66a2640a8153f6d81b36a408546b3a62b0422405dc7cb59453c4c402daa2fefaae1d73ff0000000000000402ad5336963eefb4053b36d6a7b75e3406fd5a3f6af6b74407b91cbb254e15e,
  0x409472338d194c7340bfb989b057083f40e12dc8111b57be40fdfa7664d0f1ea41165834e372a2e4412d604c0000000041415fd5f15485f44152bef4d42ccee14162a19acbcaf3bf41712f2777c9ad77417d95d590b6bb584187e065cba391834192214e0c2fff2d4199fae04ee4779141a19ad6e37a501641a69b6b7e5fab7a41ab8c3932937e4841afe3c34689557041b18ccb97c129cd41b2608fe9b7c50741b2504fbc2ab8b041b15ee1da99cab841af5c248774ccf541aaee32d323febb41a5fd16eb88827541a10e536396cbff41991be257908c21419183915a17aa1641871cc666d0540b417cca6bd9e8e69a4170e1fb4ec26baa41629510dfdaea1e41531efafe5ef8d341424e9643985d4c41303682dcd3bd35411a5e090e7d6bad41038053f34b4a6840e9e9e941f2c77040ce6b67a2ff1a6140aece9c874f0f424089fa9320537ee24061369943a371e740300ff807f60deb3ff0000000000000402daa2fefaae1d74058dfeb6abd9840407859d7d67a1b6b408d82eb3ed3efdc409472338d194c73,
  0x40ab5e24c24c048340d4bd0fa04efae540f5ecc67aea98f44112a9e9614ca07d412b206d8a60c0dc41415fd5f15485f4415402d680000000416501dc09236ac241744c7eec1fafaa41822ff30b27fa87418e642f3103d2774197c8a8fb275bf641a17ecd84fbbf3841a842fb63fd7bab41afc8ec648ea08b41b3b4538b642d5a41b72734962b5c5741b9cf4c37e6302e41bb50bafce705f141bb75701b86883b41ba394667ac9a8141b7cab7ae6a51ca41b480022c85f3e541b0c423f9b71ef541aa02959675510641a31d0a4ac165da419a931a9ebf1ca941917227e29ac4d94185956f510c9da941791812cb6d51fd416b53f20a51a623415bc3e340a8a781414a3075b3423a314136cb7bb3318a2d41222b3113e888ed410a43d25103fa9640f0ff52997c98be40d35c1c7968e3e240b2f039fa9580f4408eaffbd433dae24063688f736ab6e54031257c5187fd083ff000000000000040300ff807f60deb405dc7cb59453c4c4080a5d4a1b76a95409872258d82733c40a7b37f92a367e140ab5e24c24c0483,
  0x40c0c25e84ddcfc940e8cb6e0f049ebc410992dfc36413c2412539be19b4a6ed413e0f234f3a46054152bef4d42ccee1416501dc09236ac2417570c1400000004184201e504abd004191806affab3010419c5bfe382a581641a58004563329fc41ae9c45c49f604b41b4845c89ab0b2b41b9f3c52817f5a641bf0728caa239c141c18ddc7f48285f41c2d0d15f528bda41c31de44fa7637941c26a9962e8825b41c0d2c9a370db7b41bd23933500581141b7e966c31d2ea041b29421b49cf0bb41ab4e0eb3efb61341a2f34119815bf24198cc3dc644d382418e8625168b5fc241819f7fa757fee6417306930c8c694b4163202453ed7f6a4151cff1d942e978413e8c3d9d3c4bb24127edfb33332b7f4110f435491c551940f571fa30adcbef40d7ca953dfb6f4640b694ecefa0cdd84091ac11a7b08f6940657a0b14f120b940321c5b70d9f8233ff00000000000004031257c5187fd084061369943a371e7408546b3a62b042240a1d732c18dc19e40b4f53e3eb86a1a40c0eed487225feb40c0c25e84ddcfc9,
  0x40d2f85e4290874a40fb6190502edaf7411b8911500b6895413644895f5839d9414eb484d5399d6d4162a19acbcaf3bf41744c7eec1fafaa4184201e504abd00419255e3b4000000419eec7864fcbe3541a8456c8234cd3341b1cea09f0d6e8741b881f1915d075f41bfb85e3c2a1c1441c35859ef8dc45641c645a38bcc89ec41c83b4caeac34d641c8ef247f38d2db41c8470f323e532541c65f0b4fddcc2941c381da98bef4b741c016dc7c3dd66c41b915f58ad18bf941b2770ab9e4cbbc41a9a157d0f7fb2941a0bdd9f0394141419489d845d167cf4187987edff4e66041794cc0790252eb416936612c2410eb41573b92990a2eae4143ab9dd5d3f841412e5c68f6a5fd4a41152402fc7caac940fa36242e10ff3740dc6b32e8b3e41940ba45ec7976933c4093f32be2bcd4a240676b32b54526514032f9422c23c47d3ff000000000000040321c5b70d9f8234063688f736ab6e54089fa9320537ee240a8153f6d81b36a40c027c62046a44440cfa163f82c9ce540d5e7a6a68be25f40d2f85e4290874a,
  0x40e3ff0fc25d1bfe410c2402bd423f61412b92d9e8e446f74145b639e86b1652415d212499f34ed641712f2777c9ad7741822ff30b27fa874191806affab3010419eec7864fcbe3541a94322f800000041b3302492fc56ab41bb378fe42c9d9841c2155273b9fbc741c691be4225650f41ca824ec0e8ad6941cd58919e2e474e41cea69f49f4f12d41ce39afbead6ef541cc265f60bb0e7f41c8c2ad2616966f41c48ffbf4a2170441c01c93f427dc5b41b7cc67c75df20341b08b5426b32ba941a59d02a0b1fafc419a7886a451df75418e4f28374628bf41802ab4f994441e41700041edce9c01415d3bdd6355c39241487d4ac30c19d04132a9348f3db8e841199a45887a6fd040ff32aa698dbf0e40e093ddb268efb940bdf4bba25c9163409627cc0134ba4140693c1e1e0c251f4033bf984cb56c773ff00000000000004032f9422c23c47d40657a0b14f120b9408eaffbd433dae240aece9c874f0f4240c6d8de19e66a2640d98b3b95b60a1240e56f0acffb088640e9f9db24dab0a840e3ff0fc25d1bfe,
  0x40f3beab14b56bfd411b12fef83c8dfc4139d49e46daaa7b4153ca218bb3d9fb4169d01fdd84d3b8417d95d590b6bb58418e642f3103d277419c5bfe382a581641a8456c8234cd3341b3302492fc56ab41bc2d583c00000041c34b6d5568386a41c8b93357f2aa1a41cdb6c09c4a515441d0c779be43848841d1d4f6ea762f7541d1d9490ce9a16a41d0d5f15ec9bb9341cdef1607b38c0941c9136d559a299b41c3c87de863048b41bd5ed2073027cd41b47c8415d8003441aacedac6d422a041a06a9f7bf225374192c3ff8b2e183c4183f3b3d6f187fd4173a5b7bd08b74e4161d3490f4b8b3f414d9b3459f85ada4136523e33083a03411e3ce6f764eb9e410226702f30900e40e2f50be3b601e440c0c9ee1fa66e4b40984524673b98f0406aecdcc5ef9138403471eeaf76c2c63ff00000000000004033bf984cb56c7740676b32b54526514091ac11a7b08f6940b2f039fa9580f440ce6b67a2ff1a6140e2ccbeb7e94be740f2041fff003a9d40fa74866db6137940fc7fc9054d372440f3beab14b56bfd,
  0x41025967ff2cfbad41287f9cdd04e57d4146bdcea2daa6b04160f05eb5539fd3417576a30973714a4187e065cba391834197c8a8fb275bf641a58004563329fc41b1cea09f0d6e8741bb378fe42c9d9841c34b6d5568386a41c97b128c00000041cf70dab24b705e41d22abaf25c47be41d3b25da896b28041d40f6ef31d737b41d334cd9ae0c23341d14aee1ba3100741cd48469bc80c2541c74db453beb62d41c16ad2b44515ce41b86be0c301250841b00848565a06c641a3ab190d5b9c6141967b98a4a61cd84187dd4087ac983241776bd24d2cb31441652440f7f718e341516ff3a192b96e413a10cc551e1604412177e257b732664104b4adbbd92dda40e54e5a73d8105340c28b67bbfeaf06409a46ff1150b30a406c7d7926b1baac40351241356cf6e03ff0000000000000403471eeaf76c2c640693c1e1e0c251f4093f32be2bcd4a240b694ecefa0cdd840d35c1c7968e3e240e9e9e941f2c77040fb7457d787480f41070571e3a803b8410e0c7a5aa45e2c410d222252f110e841025967ff2cfbad,
  0x41101c2fe843d0764134ed79eb5285cc4152e31685775aa4416b5507c5ffac574180ce9ad2606ff14192214e0c2fff2d41a17ecd84fbbf3841ae9c45c49f604b41b881f1915d075f41c2155273b9fbc741c8b93357f2aa1a41cf70dab24b705e41d2a6c58100000041d4b12224e67ec341d57fe6f326ab9441d4f1c57cef58e441d3242a06fb9f1141d069db2a02e1cb41ca676482d5223441c3e8280bd9dc1241bc1a9dea3e9e6241b28b374a25d89241a6d36b3e97904c419a22bea7f9b189418bbddc7c9e9a0f417b2e5fe1e4f614416874148162b469415411157dfee7e2413dca977eef2a474123cad4f05b63b9410736559dabaf3c40e7956af69d210a40c4390b06f5ec16409c29a901f5ec10406dedfa9659b8d44035a220734903763ff000000000000040351241356cf6e0406aecdcc5ef9138409627cc0134ba4140ba45ec7976933c40d7ca953dfb6f4640f0ff52997c98be41038053f34b4a684112140309029f21411af30861b3aaa5411fa887461d64bc411be74d39c35d1041101c2fe843d076,
  0x411acf0fef36e8d64140eddd6efa8893415daf11967db0574174d8b972f0e08e4188dc6a4c94bb404199fae04ee4779141a842fb63fd7bab41b4845c89ab0b2b41bfb85e3c2a1c1441c691be4225650f41cdb6c09c4a515441d22abaf25c47be41d4b12224e67ec341d5ffc82200000041d5dd31fd27e7df41d454ceb31341f141d1b23410814a6841ccd4c5e0befb4a41c5f827952f6c8e41bf496088d40edd41b4c923f860fc2041a9b7343ebdc7b5419d8b23c92f1498418f69464097cde6417ec6cec498b9aa416ba4524d52634541569b72338ca7224140b24fed5fc3b5412608a11840a58041099e00b18979f740e9c06d9babd89040c5cd9841cf82b2409de9e283ebda69406f3e665be98228403622cd337f0fe83ff00000000000004035a22073490376406c7d7926b1baac40984524673b98f040bdf4bba25c916340dc6b32e8b3e41940f571fa30adcbef410a43d25103fa96411a5e090e7d6bad4125ba2d9286494b412d2671e4461121412f217187e20a40412926e29641056d411acf0fef36e8d6,
  0x412531ba23751627414a00a87b67e8d94166204ce4e55609417e22d616fcbd8c4191687b699f5e2441a19ad6e37a501641afc8ec648ea08b41b9f3c52817f5a641c35859ef8dc45641ca824ec0e8ad6941d0c779be43848841d3b25da896b28041d57fe6f326ab9441d5dd31fd27e7df41d4bdf73600000041d25e95aac5f70041ce60d77663991f41c771ba60244fba41c0df3f77faa78841b69d3a78393a3541ac2b89ebb9b1f441a04395769062c2419159ae88803e744181073686cd7efb416e966be836fc434158f9832c1c53d74142621a5b8b21cf412822fff1ff16a5410bdee4f614f84940ebc63facc2068d40c7444f99afe090409f84d2eea58ff5407037602c46c2dc4036954b41cd42933ff0000000000000403622cd337f0fe8406dedfa9659b8d4409a46ff1150b30a40c0c9ee1fa66e4b40e093ddb268efb940fa36242e10ff374110f435491c551941222b3113e888ed41303682dcd3bd3541380c33f484b682413d548ea77c24a1413cb676f32ffe7a413569f42964a1a3412531ba23751627,
  0x412fe8ad8f63de714152ff91be7a506e416f5a38d20879b74184af16f91d8a3c419720171dfd320241a69b6b7e5fab7a41b3b4538b642d5a41bf0728caa239c141c645a38bcc89ec41cd58919e2e474e41d1d4f6ea762f7541d40f6ef31d737b41d4f1c57cef58e441d454ceb31341f141d25e95aac5f70041cee8e3d800000041c8368edcb3843c41c1a5efcd83057c41b7e84dedd0ac0e41ae0a8a4ee3027a41a176a6f9ac1c9d4192b988082264a841827057e87be399417096a46e59b65e415b16bce3cff1274143e7f8846ba7a4412a0c78c38d4910410ded1990ae9b0d40ed9e85bc3cd2ee40c898f12e734dcb40a07bff83c2d8134070bf85b97b019b4036fa6ea162d0f03ff00000000000004036954b41cd4293406f3e665be98228409c29a901f5ec1040c28b67bbfeaf0640e2f50be3b601e440ff32aa698dbf0e41152402fc7caac94127edfb33332b7f4136cb7bb3318a2d41424e9643985d4c4148af64801b0917414b994bb27f40554148f07ea71260d14141456d38cc491e412fe8ad8f63de71,
  0x4136e9af6f46b434415a751c269e6fcb417526186ab68c2e418b012d13259c00419d2f86e6d327d041ab8c3932937e4841b72734962b5c5741c18ddc7f48285f41c83b4caeac34d641cea69f49f4f12d41d1d9490ce9a16a41d334cd9ae0c23341d3242a06fb9f1141d1b23410814a6841ce60d77663991f41c8368edcb3843c41c1e9e12300000041b893c651c4836041af368fd4cb6bb641a24da1186df79b4193c29076ebfe9a41838eae23b192804171a7627d0d1300415ce074944ef2be41453852b64b056c412bb8c1d60e59ac410fbdd2d0bea29840ef41c201adebe940c9c7bd16eefdcf40a120a0b071234c407137a4eecc46bd403752e50db3a3a13ff00000000000004036fa6ea162d0f0407037602c46c2dc409de9e283ebda6940c4390b06f5ec1640e54e5a73d81053410226702f30900e41199a45887a6fd0412e5c68f6a5fd4a413e8c3d9d3c4bb2414a3075b3423a3141531efafe5ef8d34157a25b962f67b741586428b6748ce74154777277c96ee2414a751c269e6fcb4136e9af6f46b434,
  0x413f6fa7613a503f4161951e254b5ba7417b33d29e5f0b1a4190c9ccb8b582a941a184bf3f39b69941afe3c34689557041b9cf4c37e6302e41c2d0d15f528bda41c8ef247f38d2db41ce39afbead6ef541d0d5f15ec9bb9341d14aee1ba3100741d069db2a02e1cb41ccd4c5e0befb4a41c771ba60244fba41c1a5efcd83057c41b893c651c4836041af9cba7a00000041a2bc4b90a15205419467431c11a4054184553840ac7311417272831d77ed0c415e46ae4c623dc34146491493b76cf4412d1d15f6d0ddd14110a3cb18f62f3840f054b3a28a447440cacd7363a93c6440a1af62233db94f40719fbea2ee496540379f3cf0a9fb4d3ff0000000000000403752e50db3a3a14070bf85b97b019b409f84d2eea58ff540c5cd9841cf82b240e7956af69d210a4104b4adbbd92dda411e3ce6f764eb9e4132a9348f3db8e84143ab9dd5d3f8414151cff1d942e978415bc3e340a8a78141629510dfdaea1e416533976f8b0b1e4164515770c4e39c415fd2ec7dd1bc9c415348b5b54a6485413f6fa7613a503f,
  0x4144a09b82f4a88d4166546cde50d0684180b2a17ba8ef7a4193e6549091bd7441a406122df812eb41b18ccb97c129cd41bb50bafce705f141c31de44fa7637941c8470f323e532541cc265f60bb0e7f41cdef1607b38c0941cd48469bc80c2541ca676482d5223441c5f827952f6c8e41c0df3f77faa78841b7e84dedd0ac0e41af368fd4cb6bb641a2bc4b90a1520541949f20a40000004184bad6f32fee374172efccabc5de2e415f3ccb96b98e7c4147120653ca33a6412e307d6d4492c1411141332ed0e3aa40f0e7f451ab856240cba75420a02d7840a2277e736640534071f7d37a3825534037dfea8e0922113ff000000000000040379f3cf0a9fb4d407137a4eecc46bd40a07bff83c2d81340c7444f99afe09040e9c06d9babd890410736559dabaf3c412177e257b732664136523e33083a0341487d4ac30c19d041573b92990a2eae4163202453ed7f6a416b53f20a51a6234170e1fb4ec26baa4171e2f4133430d9416fff14b4ff84dc41677df69c524f27415acbb5d7942d4a4144a09b82f4a88d,
  0x4149eb68c31b4bae416b1f9b42c3aa444183953f8f43deb741968134da5d307141a5ce6509fe8ee641b2608fe9b7c50741bb75701b86883b41c26a9962e8825b41c65f0b4fddcc2941c8c2ad2616966f41c9136d559a299b41c74db453beb62d41c3e8280bd9dc1241bf496088d40edd41b69d3a78393a3541ae0a8a4ee3027a41a24da1186df79b419467431c11a4054184bad6f32fee3741731a23a0000000415fba143d6a836141478d1482556483412eec097304a2d44111b3f3960a8f6540f1586332c8a3b640cc531f56774bd540a28853bf5e63fc40723fe3f1e36c144038154be27735253ff00000000000004037dfea8e09221140719fbea2ee496540a120a0b071234c40c898f12e734dcb40ebc63facc2068d41099e00b18979f74123cad4f05b63b9413a10cc551e1604414d9b3459f85ada415d3bdd6355c392416936612c2410eb417306930c8c694b41791812cb6d51fd417cca6bd9e8e69a417c7811506724b04177df3b01b1756241707efb87d080564161c5426989059f4149eb68c31b4bae,
  0x414f36173d3516e7416f88e450c3c1bd4185f46c377eebd141984bbf7db3eaf841a6a2e876fc1d8141b2504fbc2ab8b041ba394667ac9a8141c0d2c9a370db7b41c381da98bef4b741c48ffbf4a2170441c3c87de863048b41c16ad2b44515ce41bc1a9dea3e9e6241b4c923f860fc2041ac2b89ebb9b1f441a176a6f9ac1c9d4193c29076ebfe9a4184553840ac73114172efccabc5de2e415fba143d6a83614147b68480000000412f4b01702d78ed4111f9bcd27e23fd40f1a44c0b9aaca840cccf150b40575140a2d1622e82da4d407277f067ef054c40383fab8b4d43153ff00000000000004038154be27735254071f7d37a38255340a1af62233db94f40c9c7bd16eefdcf40ed9e85bc3cd2ee410bdee4f614f849412608a11840a580413dca977eef2a4741516ff3a192b96e4161d3490f4b8b3f41700041edce9c0141794cc0790252eb41819f7fa757fee64185956f510c9da941871cc666d0540b41856cff4a8cbbb74180e8c3298968744176122910824d3c41668659f08bd387414f36173d3516e7,
  0x41520514c06fdc6c41718e6d126ddce241878a572a55a53541990c73be5659a041a66778b6d6049a41b15ee1da99cab841b7cab7ae6a51ca41bd23933500581141c016dc7c3dd66c41c01c93f427dc5b41bd5ed2073027cd41b86be0c301250841b28b374a25d89241a9b7343ebdc7b541a04395769062c24192b988082264a841838eae23b19280417272831d77ed0c415f3ccb96b98e7c41478d1482556483412f4b01702d78ed411211280000000040f1ca89fde8ca6640cd19f542ffbca840a3024acf21074b40729ff920a3abf040385f42f15214113ff000000000000040383fab8b4d431540723fe3f1e36c1440a2277e7366405340cacd7363a93c6440ef41c201adebe9410ded1990ae9b0d412822fff1ff16a54140b24fed5fc3b5415411157dfee7e241652440f7f718e34173a5b7bd08b74e41802ab4f994441e4187987edff4e660418e8625168b5fc241917227e29ac4d9419183915a17aa16418e8fc57cb06a0d4186c77eb3383580417c2b01767c5ca9416b4f54558e740a41520514c06fdc6c,
  0x4153f67aaefdca0e4172ba9f3590742e41882597f85ebf5d4198aa8bdd05ea9b41a524929c62038841af5c248774ccf541b480022c85f3e541b7e966c31d2ea041b915f58ad18bf941b7cc67c75df20341b47c8415d8003441b00848565a06c641a6d36b3e97904c419d8b23c92f1498419159ae88803e7441827057e87be3994171a7627d0d1300415e46ae4c623dc34147120653ca33a6412eec097304a2d44111f9bcd27e23fd40f1ca89fde8ca6640cd33000000000040a31acec5b4c0094072b7fe4a5d172e4038743bde58000c3ff000000000000040385f42f1521411407277f067ef054c40a28853bf5e63fc40cba75420a02d7840f054b3a28a4474410fbdd2d0bea298412a0c78c38d49104142621a5b8b21cf41569b72338ca722416874148162b46941776bd24d2cb3144183f3b3d6f187fd418e4f28374628bf419489d845d167cf4198cc3dc644d382419a931a9ebf1ca941991be257908c214194b0b7e27f14c0418d384f09c40e0a418129afc1dcf190416fb1f9bd1bd84e4153f67aaefdca0e,
  0x4155398f17d31a9e417325aab0cefe324187b2d1e414ba98419733154334540141a305677da46d2a41aaee32d323febb41b0c423f9b71ef541b29421b49cf0bb41b2770ab9e4cbbc41b08b5426b32ba941aacedac6d422a041a3ab190d5b9c61419a22bea7f9b189418f69464097cde64181073686cd7efb417096a46e59b65e415ce074944ef2be4146491493b76cf4412e307d6d4492c14111b3f3960a8f6540f1a44c0b9aaca840cd19f542ffbca840a31acec5b4c0094072c0000000000040387eb1990b697a3ff00000000000004038743bde58000c40729ff920a3abf040a2d1622e82da4d40cc531f56774bd540f0e7f451ab85624110a3cb18f62f38412bb8c1d60e59ac4143e7f8846ba7a44158f9832c1c53d7416ba4524d526345417b2e5fe1e4f6144187dd4087ac98324192c3ff8b2e183c419a7886a451df7541a0bdd9f039414141a2f34119815bf241a31d0a4ac165da41a10e536396cbff419aa12a7cb2ff3b4191dd180d58eec34183fc59f7d0a0c641719d888e2f12d24155398f17d31a9e,
  0x4155a99a56e886804172c2a20b084c94418640917f4aff5d4194d62a44b0691341a04ea4ffb376a041a5fd16eb88827541aa02959675510641ab4e0eb3efb61341a9a157d0f7fb2941a59d02a0b1fafc41a06a9f7bf2253741967b98a4a61cd8418bbddc7c9e9a0f417ec6cec498b9aa416e966be836fc43415b16bce3cff12741453852b64b056c412d1d15f6d0ddd1411141332ed0e3aa40f1586332c8a3b640cccf150b40575140a3024acf21074b4072b7fe4a5d172e40387eb1990b697a3ff000000000000040387eb1990b697a4072b7fe4a5d172e40a3024acf21074b40cccf150b40575140f1586332c8a3b6411141332ed0e3aa412d1d15f6d0ddd141453852b64b056c415b16bce3cff127416e966be836fc43417ec6cec498b9aa418bbddc7c9e9a0f41967b98a4a61cd841a06a9f7bf2253741a59d02a0b1fafc41a9a157d0f7fb2941ab4e0eb3efb61341aa02959675510641a5fd16eb88827541a04ea4ffb376a04194d62a44b06913418640917f4aff5d4172c2a20b084c944155a99a56e88680,
  0x4155398f17d31a9e41719d888e2f12d24183fc59f7d0a0c64191dd180d58eec3419aa12a7cb2ff3b41a10e536396cbff41a31d0a4ac165da41a2f34119815bf241a0bdd9f0394141419a7886a451df754192c3ff8b2e183c4187dd4087ac9832417b2e5fe1e4f614416ba4524d5263454158f9832c1c53d74143e7f8846ba7a4412bb8c1d60e59ac4110a3cb18f62f3840f0e7f451ab856240cc531f56774bd540a2d1622e82da4d40729ff920a3abf04038743bde58000c3ff000000000000040387eb1990b697a4072c0000000000040a31acec5b4c00940cd19f542ffbca840f1a44c0b9aaca84111b3f3960a8f65412e307d6d4492c14146491493b76cf4415ce074944ef2be417096a46e59b65e4181073686cd7efb418f69464097cde6419a22bea7f9b18941a3ab190d5b9c6141aacedac6d422a041b08b5426b32ba941b2770ab9e4cbbc41b29421b49cf0bb41b0c423f9b71ef541aaee32d323febb41a305677da46d2a41973315433454014187b2d1e414ba98417325aab0cefe324155398f17d31a9e,
  0x4153f67aaefdca0e416fb1f9bd1bd84e418129afc1dcf190418d384f09c40e0a4194b0b7e27f14c041991be257908c21419a931a9ebf1ca94198cc3dc644d382419489d845d167cf418e4f28374628bf4183f3b3d6f187fd41776bd24d2cb314416874148162b46941569b72338ca7224142621a5b8b21cf412a0c78c38d4910410fbdd2d0bea29840f054b3a28a447440cba75420a02d7840a28853bf5e63fc407277f067ef054c40385f42f15214113ff00000000000004038743bde58000c4072b7fe4a5d172e40a31acec5b4c00940cd33000000000040f1ca89fde8ca664111f9bcd27e23fd412eec097304a2d44147120653ca33a6415e46ae4c623dc34171a7627d0d130041827057e87be399419159ae88803e74419d8b23c92f149841a6d36b3e97904c41b00848565a06c641b47c8415d8003441b7cc67c75df20341b915f58ad18bf941b7e966c31d2ea041b480022c85f3e541af5c248774ccf541a524929c6203884198aa8bdd05ea9b41882597f85ebf5d4172ba9f3590742e4153f67aaefdca0e,
  0x41520514c06fdc6c416b4f54558e740a417c2b01767c5ca94186c77eb3383580418e8fc57cb06a0d419183915a17aa1641917227e29ac4d9418e8625168b5fc24187987edff4e66041802ab4f994441e4173a5b7bd08b74e41652440f7f718e3415411157dfee7e24140b24fed5fc3b5412822fff1ff16a5410ded1990ae9b0d40ef41c201adebe940cacd7363a93c6440a2277e7366405340723fe3f1e36c1440383fab8b4d43153ff000000000000040385f42f152141140729ff920a3abf040a3024acf21074b40cd19f542ffbca840f1ca89fde8ca664112112800000000412f4b01702d78ed41478d1482556483415f3ccb96b98e7c417272831d77ed0c41838eae23b192804192b988082264a841a04395769062c241a9b7343ebdc7b541b28b374a25d89241b86be0c301250841bd5ed2073027cd41c01c93f427dc5b41c016dc7c3dd66c41bd23933500581141b7cab7ae6a51ca41b15ee1da99cab841a66778b6d6049a41990c73be5659a041878a572a55a53541718e6d126ddce241520514c06fdc6c,
  0x414f36173d3516e741668659f08bd3874176122910824d3c4180e8c32989687441856cff4a8cbbb741871cc666d0540b4185956f510c9da941819f7fa757fee641794cc0790252eb41700041edce9c014161d3490f4b8b3f41516ff3a192b96e413dca977eef2a47412608a11840a580410bdee4f614f84940ed9e85bc3cd2ee40c9c7bd16eefdcf40a1af62233db94f4071f7d37a3825534038154be27735253ff000000000000040383fab8b4d4315407277f067ef054c40a2d1622e82da4d40cccf150b40575140f1a44c0b9aaca84111f9bcd27e23fd412f4b01702d78ed4147b68480000000415fba143d6a83614172efccabc5de2e4184553840ac73114193c29076ebfe9a41a176a6f9ac1c9d41ac2b89ebb9b1f441b4c923f860fc2041bc1a9dea3e9e6241c16ad2b44515ce41c3c87de863048b41c48ffbf4a2170441c381da98bef4b741c0d2c9a370db7b41ba394667ac9a8141b2504fbc2ab8b041a6a2e876fc1d8141984bbf7db3eaf84185f46c377eebd1416f88e450c3c1bd414f36173d3516e7,
  0x4149eb68c31b4bae4161c5426989059f41707efb87d080564177df3b01b17562417c7811506724b0417cca6bd9e8e69a41791812cb6d51fd417306930c8c694b416936612c2410eb415d3bdd6355c392414d9b3459f85ada413a10cc551e16044123cad4f05b63b941099e00b18979f740ebc63facc2068d40c898f12e734dcb40a120a0b071234c40719fbea2ee49654037dfea8e0922113ff00000000000004038154be277352540723fe3f1e36c1440a28853bf5e63fc40cc531f56774bd540f1586332c8a3b64111b3f3960a8f65412eec097304a2d441478d1482556483415fba143d6a836141731a23a00000004184bad6f32fee37419467431c11a40541a24da1186df79b41ae0a8a4ee3027a41b69d3a78393a3541bf496088d40edd41c3e8280bd9dc1241c74db453beb62d41c9136d559a299b41c8c2ad2616966f41c65f0b4fddcc2941c26a9962e8825b41bb75701b86883b41b2608fe9b7c50741a5ce6509fe8ee641968134da5d30714183953f8f43deb7416b1f9b42c3aa444149eb68c31b4bae,
  0x4144a09b82f4a88d415acbb5d7942d4a41677df69c524f27416fff14b4ff84dc4171e2f4133430d94170e1fb4ec26baa416b53f20a51a6234163202453ed7f6a41573b92990a2eae41487d4ac30c19d04136523e33083a03412177e257b73266410736559dabaf3c40e9c06d9babd89040c7444f99afe09040a07bff83c2d813407137a4eecc46bd40379f3cf0a9fb4d3ff00000000000004037dfea8e0922114071f7d37a38255340a2277e7366405340cba75420a02d7840f0e7f451ab8562411141332ed0e3aa412e307d6d4492c14147120653ca33a6415f3ccb96b98e7c4172efccabc5de2e4184bad6f32fee3741949f20a400000041a2bc4b90a1520541af368fd4cb6bb641b7e84dedd0ac0e41c0df3f77faa78841c5f827952f6c8e41ca676482d5223441cd48469bc80c2541cdef1607b38c0941cc265f60bb0e7f41c8470f323e532541c31de44fa7637941bb50bafce705f141b18ccb97c129cd41a406122df812eb4193e6549091bd744180b2a17ba8ef7a4166546cde50d0684144a09b82f4a88d,
  0x413f6fa7613a503f415348b5b54a6485415fd2ec7dd1bc9c4164515770c4e39c416533976f8b0b1e41629510dfdaea1e415bc3e340a8a7814151cff1d942e9784143ab9dd5d3f8414132a9348f3db8e8411e3ce6f764eb9e4104b4adbbd92dda40e7956af69d210a40c5cd9841cf82b2409f84d2eea58ff54070bf85b97b019b403752e50db3a3a13ff000000000000040379f3cf0a9fb4d40719fbea2ee496540a1af62233db94f40cacd7363a93c6440f054b3a28a44744110a3cb18f62f38412d1d15f6d0ddd14146491493b76cf4415e46ae4c623dc3417272831d77ed0c4184553840ac7311419467431c11a40541a2bc4b90a1520541af9cba7a00000041b893c651c4836041c1a5efcd83057c41c771ba60244fba41ccd4c5e0befb4a41d069db2a02e1cb41d14aee1ba3100741d0d5f15ec9bb9341ce39afbead6ef541c8ef247f38d2db41c2d0d15f528bda41b9cf4c37e6302e41afe3c34689557041a184bf3f39b6994190c9ccb8b582a9417b33d29e5f0b1a4161951e254b5ba7413f6fa7613a503f,
  0x4136e9af6f46b434414a751c269e6fcb4154777277c96ee241586428b6748ce74157a25b962f67b741531efafe5ef8d3414a3075b3423a31413e8c3d9d3c4bb2412e5c68f6a5fd4a41199a45887a6fd0410226702f30900e40e54e5a73d8105340c4390b06f5ec16409de9e283ebda69407037602c46c2dc4036fa6ea162d0f03ff0000000000000403752e50db3a3a1407137a4eecc46bd40a120a0b071234c40c9c7bd16eefdcf40ef41c201adebe9410fbdd2d0bea298412bb8c1d60e59ac41453852b64b056c415ce074944ef2be4171a7627d0d130041838eae23b192804193c29076ebfe9a41a24da1186df79b41af368fd4cb6bb641b893c651c4836041c1e9e12300000041c8368edcb3843c41ce60d77663991f41d1b23410814a6841d3242a06fb9f1141d334cd9ae0c23341d1d9490ce9a16a41cea69f49f4f12d41c83b4caeac34d641c18ddc7f48285f41b72734962b5c5741ab8c3932937e48419d2f86e6d327d0418b012d13259c00417526186ab68c2e415a751c269e6fcb4136e9af6f46b434,
  0x412fe8ad8f63de714141456d38cc491e4148f07ea71260d1414b994bb27f40554148af64801b091741424e9643985d4c4136cb7bb3318a2d4127edfb33332b7f41152402fc7caac940ff32aa698dbf0e40e2f50be3b601e440c28b67bbfeaf06409c29a901f5ec10406f3e665be982284036954b41cd42933ff00000000000004036fa6ea162d0f04070bf85b97b019b40a07bff83c2d81340c898f12e734dcb40ed9e85bc3cd2ee410ded1990ae9b0d412a0c78c38d49104143e7f8846ba7a4415b16bce3cff127417096a46e59b65e41827057e87be3994192b988082264a841a176a6f9ac1c9d41ae0a8a4ee3027a41b7e84dedd0ac0e41c1a5efcd83057c41c8368edcb3843c41cee8e3d800000041d25e95aac5f70041d454ceb31341f141d4f1c57cef58e441d40f6ef31d737b41d1d4f6ea762f7541cd58919e2e474e41c645a38bcc89ec41bf0728caa239c141b3b4538b642d5a41a69b6b7e5fab7a419720171dfd32024184af16f91d8a3c416f5a38d20879b74152ff91be7a506e412fe8ad8f63de71,
  0x412531ba23751627413569f42964a1a3413cb676f32ffe7a413d548ea77c24a141380c33f484b68241303682dcd3bd3541222b3113e888ed4110f435491c551940fa36242e10ff3740e093ddb268efb940c0c9ee1fa66e4b409a46ff1150b30a406dedfa9659b8d4403622cd337f0fe83ff00000000000004036954b41cd4293407037602c46c2dc409f84d2eea58ff540c7444f99afe09040ebc63facc2068d410bdee4f614f849412822fff1ff16a54142621a5b8b21cf4158f9832c1c53d7416e966be836fc434181073686cd7efb419159ae88803e7441a04395769062c241ac2b89ebb9b1f441b69d3a78393a3541c0df3f77faa78841c771ba60244fba41ce60d77663991f41d25e95aac5f70041d4bdf73600000041d5dd31fd27e7df41d57fe6f326ab9441d3b25da896b28041d0c779be43848841ca824ec0e8ad6941c35859ef8dc45641b9f3c52817f5a641afc8ec648ea08b41a19ad6e37a50164191687b699f5e24417e22d616fcbd8c4166204ce4e55609414a00a87b67e8d9412531ba23751627,
  0x411acf0fef36e8d6412926e29641056d412f217187e20a40412d2671e44611214125ba2d9286494b411a5e090e7d6bad410a43d25103fa9640f571fa30adcbef40dc6b32e8b3e41940bdf4bba25c916340984524673b98f0406c7d7926b1baac4035a220734903763ff0000000000000403622cd337f0fe8406f3e665be98228409de9e283ebda6940c5cd9841cf82b240e9c06d9babd89041099e00b18979f7412608a11840a5804140b24fed5fc3b541569b72338ca722416ba4524d526345417ec6cec498b9aa418f69464097cde6419d8b23c92f149841a9b7343ebdc7b541b4c923f860fc2041bf496088d40edd41c5f827952f6c8e41ccd4c5e0befb4a41d1b23410814a6841d454ceb31341f141d5dd31fd27e7df41d5ffc82200000041d4b12224e67ec341d22abaf25c47be41cdb6c09c4a515441c691be4225650f41bfb85e3c2a1c1441b4845c89ab0b2b41a842fb63fd7bab4199fae04ee477914188dc6a4c94bb404174d8b972f0e08e415daf11967db0574140eddd6efa8893411acf0fef36e8d6,
  0x41101c2fe843d076411be74d39c35d10411fa887461d64bc411af30861b3aaa54112140309029f2141038053f34b4a6840f0ff52997c98be40d7ca953dfb6f4640ba45ec7976933c409627cc0134ba41406aecdcc5ef913840351241356cf6e03ff00000000000004035a22073490376406dedfa9659b8d4409c29a901f5ec1040c4390b06f5ec1640e7956af69d210a410736559dabaf3c4123cad4f05b63b9413dca977eef2a47415411157dfee7e2416874148162b469417b2e5fe1e4f614418bbddc7c9e9a0f419a22bea7f9b18941a6d36b3e97904c41b28b374a25d89241bc1a9dea3e9e6241c3e8280bd9dc1241ca676482d5223441d069db2a02e1cb41d3242a06fb9f1141d4f1c57cef58e441d57fe6f326ab9441d4b12224e67ec341d2a6c58100000041cf70dab24b705e41c8b93357f2aa1a41c2155273b9fbc741b881f1915d075f41ae9c45c49f604b41a17ecd84fbbf384192214e0c2fff2d4180ce9ad2606ff1416b5507c5ffac574152e31685775aa44134ed79eb5285cc41101c2fe843d076,
  0x41025967ff2cfbad410d222252f110e8410e0c7a5aa45e2c41070571e3a803b840fb7457d787480f40e9e9e941f2c77040d35c1c7968e3e240b694ecefa0cdd84093f32be2bcd4a240693c1e1e0c251f403471eeaf76c2c63ff000000000000040351241356cf6e0406c7d7926b1baac409a46ff1150b30a40c28b67bbfeaf0640e54e5a73d810534104b4adbbd92dda412177e257b73266413a10cc551e160441516ff3a192b96e41652440f7f718e341776bd24d2cb3144187dd4087ac983241967b98a4a61cd841a3ab190d5b9c6141b00848565a06c641b86be0c301250841c16ad2b44515ce41c74db453beb62d41cd48469bc80c2541d14aee1ba3100741d334cd9ae0c23341d40f6ef31d737b41d3b25da896b28041d22abaf25c47be41cf70dab24b705e41c97b128c00000041c34b6d5568386a41bb378fe42c9d9841b1cea09f0d6e8741a58004563329fc4197c8a8fb275bf64187e065cba39183417576a30973714a4160f05eb5539fd34146bdcea2daa6b041287f9cdd04e57d41025967ff2cfbad,
  0x40f3beab14b56bfd40fc7fc9054d372440fa74866db6137940f2041fff003a9d40e2ccbeb7e94be740ce6b67a2ff1a6140b2f039fa9580f44091ac11a7b08f6940676b32b54526514033bf984cb56c773ff0000000000000403471eeaf76c2c6406aecdcc5ef913840984524673b98f040c0c9ee1fa66e4b40e2f50be3b601e4410226702f30900e411e3ce6f764eb9e4136523e33083a03414d9b3459f85ada4161d3490f4b8b3f4173a5b7bd08b74e4183f3b3d6f187fd4192c3ff8b2e183c41a06a9f7bf2253741aacedac6d422a041b47c8415d8003441bd5ed2073027cd41c3c87de863048b41c9136d559a299b41cdef1607b38c0941d0d5f15ec9bb9341d1d9490ce9a16a41d1d4f6ea762f7541d0c779be43848841cdb6c09c4a515441c8b93357f2aa1a41c34b6d5568386a41bc2d583c00000041b3302492fc56ab41a8456c8234cd33419c5bfe382a5816418e642f3103d277417d95d590b6bb584169d01fdd84d3b84153ca218bb3d9fb4139d49e46daaa7b411b12fef83c8dfc40f3beab14b56bfd,
  0x40e3ff0fc25d1bfe40e9f9db24dab0a840e56f0acffb088640d98b3b95b60a1240c6d8de19e66a2640aece9c874f0f42408eaffbd433dae240657a0b14f120b94032f9422c23c47d3ff00000000000004033bf984cb56c7740693c1e1e0c251f409627cc0134ba4140bdf4bba25c916340e093ddb268efb940ff32aa698dbf0e41199a45887a6fd04132a9348f3db8e841487d4ac30c19d0415d3bdd6355c39241700041edce9c0141802ab4f994441e418e4f28374628bf419a7886a451df7541a59d02a0b1fafc41b08b5426b32ba941b7cc67c75df20341c01c93f427dc5b41c48ffbf4a2170441c8c2ad2616966f41cc265f60bb0e7f41ce39afbead6ef541cea69f49f4f12d41cd58919e2e474e41ca824ec0e8ad6941c691be4225650f41c2155273b9fbc741bb378fe42c9d9841b3302492fc56ab41a94322f8000000419eec7864fcbe354191806affab301041822ff30b27fa8741712f2777c9ad77415d212499f34ed64145b639e86b1652412b92d9e8e446f7410c2402bd423f6140e3ff0fc25d1bfe,
  0x40d2f85e4290874a40d5e7a6a68be25f40cfa163f82c9ce540c027c62046a44440a8153f6d81b36a4089fa9320537ee24063688f736ab6e540321c5b70d9f8233ff00000000000004032f9422c23c47d40676b32b54526514093f32be2bcd4a240ba45ec7976933c40dc6b32e8b3e41940fa36242e10ff3741152402fc7caac9412e5c68f6a5fd4a4143ab9dd5d3f84141573b92990a2eae416936612c2410eb41794cc0790252eb4187987edff4e660419489d845d167cf41a0bdd9f039414141a9a157d0f7fb2941b2770ab9e4cbbc41b915f58ad18bf941c016dc7c3dd66c41c381da98bef4b741c65f0b4fddcc2941c8470f323e532541c8ef247f38d2db41c83b4caeac34d641c645a38bcc89ec41c35859ef8dc45641bfb85e3c2a1c1441b881f1915d075f41b1cea09f0d6e8741a8456c8234cd33419eec7864fcbe35419255e3b40000004184201e504abd0041744c7eec1fafaa4162a19acbcaf3bf414eb484d5399d6d413644895f5839d9411b8911500b689540fb6190502edaf740d2f85e4290874a,
  0x40c0c25e84ddcfc940c0eed487225feb40b4f53e3eb86a1a40a1d732c18dc19e408546b3a62b04224061369943a371e74031257c5187fd083ff000000000000040321c5b70d9f82340657a0b14f120b94091ac11a7b08f6940b694ecefa0cdd840d7ca953dfb6f4640f571fa30adcbef4110f435491c55194127edfb33332b7f413e8c3d9d3c4bb24151cff1d942e9784163202453ed7f6a417306930c8c694b41819f7fa757fee6418e8625168b5fc24198cc3dc644d38241a2f34119815bf241ab4e0eb3efb61341b29421b49cf0bb41b7e966c31d2ea041bd23933500581141c0d2c9a370db7b41c26a9962e8825b41c31de44fa7637941c2d0d15f528bda41c18ddc7f48285f41bf0728caa239c141b9f3c52817f5a641b4845c89ab0b2b41ae9c45c49f604b41a58004563329fc419c5bfe382a58164191806affab30104184201e504abd00417570c140000000416501dc09236ac24152bef4d42ccee1413e0f234f3a4605412539be19b4a6ed410992dfc36413c240e8cb6e0f049ebc40c0c25e84ddcfc9,
  0x40ab5e24c24c048340a7b37f92a367e1409872258d82733c4080a5d4a1b76a95405dc7cb59453c4c40300ff807f60deb3ff00000000000004031257c5187fd084063688f736ab6e5408eaffbd433dae240b2f039fa9580f440d35c1c7968e3e240f0ff52997c98be410a43d25103fa9641222b3113e888ed4136cb7bb3318a2d414a3075b3423a31415bc3e340a8a781416b53f20a51a62341791812cb6d51fd4185956f510c9da941917227e29ac4d9419a931a9ebf1ca941a31d0a4ac165da41aa02959675510641b0c423f9b71ef541b480022c85f3e541b7cab7ae6a51ca41ba394667ac9a8141bb75701b86883b41bb50bafce705f141b9cf4c37e6302e41b72734962b5c5741b3b4538b642d5a41afc8ec648ea08b41a842fb63fd7bab41a17ecd84fbbf384197c8a8fb275bf6418e642f3103d27741822ff30b27fa8741744c7eec1fafaa416501dc09236ac2415402d68000000041415fd5f15485f4412b206d8a60c0dc4112a9e9614ca07d40f5ecc67aea98f440d4bd0fa04efae540ab5e24c24c0483,
  0x409472338d194c73408d82eb3ed3efdc407859d7d67a1b6b4058dfeb6abd9840402daa2fefaae1d73ff000000000000040300ff807f60deb4061369943a371e74089fa9320537ee240aece9c874f0f4240ce6b67a2ff1a6140e9e9e941f2c77041038053f34b4a68411a5e090e7d6bad41303682dcd3bd3541424e9643985d4c41531efafe5ef8d341629510dfdaea1e4170e1fb4ec26baa417cca6bd9e8e69a41871cc666d0540b419183915a17aa1641991be257908c2141a10e536396cbff41a5fd16eb88827541aaee32d323febb41af5c248774ccf541b15ee1da99cab841b2504fbc2ab8b041b2608fe9b7c50741b18ccb97c129cd41afe3c34689557041ab8c3932937e4841a69b6b7e5fab7a41a19ad6e37a50164199fae04ee477914192214e0c2fff2d4187e065cba39183417d95d590b6bb5841712f2777c9ad774162a19acbcaf3bf4152bef4d42ccee141415fd5f15485f4412d604c0000000041165834e372a2e440fdfa7664d0f1ea40e12dc8111b57be40bfb989b057083f409472338d194c73,
  0x407b91cbb254e15e406fd5a3f6af6b744053b36d6a7b75e3402ad5336963eefb3ff0000000000000402daa2fefaae1d7405dc7cb59453c4c408546b3a62b042240a8153f6d81b36a40c6d8de19e66a2640e2ccbeb7e94be740fb7457d787480f4112140309029f214125ba2d9286494b41380c33f484b6824148af64801b09174157a25b962f67b7416533976f8b0b1e4171e2f4133430d9417c7811506724b041856cff4a8cbbb7418e8fc57cb06a0d4194b0b7e27f14c0419aa12a7cb2ff3b41a04ea4ffb376a041a305677da46d2a41a524929c62038841a66778b6d6049a41a6a2e876fc1d8141a5ce6509fe8ee641a406122df812eb41a184bf3f39b699419d2f86e6d327d0419720171dfd32024191687b699f5e244188dc6a4c94bb404180ce9ad2606ff1417576a30973714a4169d01fdd84d3b8415d212499f34ed6414eb484d5399d6d413e0f234f3a4605412b206d8a60c0dc41165834e372a2e4410092380000000040e5b0b73f0137fe40c84458c67ebde040a5e2e0b99899df407b91cbb254e15e,
  0x40607074ccbc86db404c7942924af40d40277ea35d632e433ff0000000000000402ad5336963eefb4058dfeb6abd98404080a5d4a1b76a9540a1d732c18dc19e40c027c62046a44440d98b3b95b60a1240f2041fff003a9d41070571e3a803b8411af30861b3aaa5412d2671e4461121413d548ea77c24a1414b994bb27f405541586428b6748ce74164515770c4e39c416fff14b4ff84dc4177df3b01b175624180e8c3298968744186c77eb3383580418d384f09c40e0a4191dd180d58eec34194d62a44b0691341973315433454014198aa8bdd05ea9b41990c73be5659a041984bbf7db3eaf841968134da5d30714193e6549091bd744190c9ccb8b582a9418b012d13259c004184af16f91d8a3c417e22d616fcbd8c4174d8b972f0e08e416b5507c5ffac574160f05eb5539fd34153ca218bb3d9fb4145b639e86b1652413644895f5839d9412539be19b4a6ed4112a9e9614ca07d40fdfa7664d0f1ea40e5b0b73f0137fe40cbb7000000000040ae493e9661d9a2408ab1ae692644cd40607074ccbc86db,
  0x4040caf8960e710d40236406304453053ff000000000000040277ea35d632e434053b36d6a7b75e3407859d7d67a1b6b409872258d82733c40b4f53e3eb86a1a40cfa163f82c9ce540e56f0acffb088640fa74866db61379410e0c7a5aa45e2c411fa887461d64bc412f217187e20a40413cb676f32ffe7a4148f07ea71260d14154777277c96ee2415fd2ec7dd1bc9c41677df69c524f2741707efb87d080564176122910824d3c417c2b01767c5ca9418129afc1dcf1904183fc59f7d0a0c6418640917f4aff5d4187b2d1e414ba9841882597f85ebf5d41878a572a55a5354185f46c377eebd14183953f8f43deb74180b2a17ba8ef7a417b33d29e5f0b1a417526186ab68c2e416f5a38d20879b74166204ce4e55609415daf11967db0574152e31685775aa44146bdcea2daa6b04139d49e46daaa7b412b92d9e8e446f7411b8911500b6895410992dfc36413c240f5ecc67aea98f440e12dc8111b57be40c84458c67ebde040ae493e9661d9a240902c0000000000406bdfc8e56237584040caf8960e710d,
  0x401bb67ae8584caa3ff00000000000004023640630445305404c7942924af40d406fd5a3f6af6b74408d82eb3ed3efdc40a7b37f92a367e140c0eed487225feb40d5e7a6a68be25f40e9f9db24dab0a840fc7fc9054d3724410d222252f110e8411be74d39c35d10412926e29641056d413569f42964a1a34141456d38cc491e414a751c269e6fcb415348b5b54a6485415acbb5d7942d4a4161c5426989059f41668659f08bd387416b4f54558e740a416fb1f9bd1bd84e41719d888e2f12d24172c2a20b084c94417325aab0cefe324172ba9f3590742e41718e6d126ddce2416f88e450c3c1bd416b1f9b42c3aa444166546cde50d0684161951e254b5ba7415a751c269e6fcb4152ff91be7a506e414a00a87b67e8d94140eddd6efa88934134ed79eb5285cc41287f9cdd04e57d411b12fef83c8dfc410c2402bd423f6140fb6190502edaf740e8cb6e0f049ebc40d4bd0fa04efae540bfb989b057083f40a5e2e0b99899df408ab1ae692644cd406bdfc8e56237584047800000000000401bb67ae8584caa,
  0x3ff0000000000000401bb67ae8584caa4040caf8960e710d40607074ccbc86db407b91cbb254e15e409472338d194c7340ab5e24c24c048340c0c25e84ddcfc940d2f85e4290874a40e3ff0fc25d1bfe40f3beab14b56bfd41025967ff2cfbad41101c2fe843d076411acf0fef36e8d6412531ba23751627412fe8ad8f63de714136e9af6f46b434413f6fa7613a503f4144a09b82f4a88d4149eb68c31b4bae414f36173d3516e741520514c06fdc6c4153f67aaefdca0e4155398f17d31a9e4155a99a56e886804155398f17d31a9e4153f67aaefdca0e41520514c06fdc6c414f36173d3516e74149eb68c31b4bae4144a09b82f4a88d413f6fa7613a503f4136e9af6f46b434412fe8ad8f63de71412531ba23751627411acf0fef36e8d641101c2fe843d07641025967ff2cfbad40f3beab14b56bfd40e3ff0fc25d1bfe40d2f85e4290874a40c0c25e84ddcfc940ab5e24c24c0483409472338d194c73407b91cbb254e15e40607074ccbc86db4040caf8960e710d401bb67ae8584caa3ff0000000000000]

end SF
