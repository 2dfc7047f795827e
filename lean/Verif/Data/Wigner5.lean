/-
Generated by tools/gen_tables.py from spherical_functions/Wigner_coefficients.npy: bytes 431640 to 533832 after the header.
-/
set_option autoImplicit false
namespace SF

/-- The coefficients for `2 ell = 54`: one number for each of the 55 values of `mp`, consisting of the doubles for the 55 values of `m`. -/
def wigner54 : List Nat := [
  0x3ff0000000000000401d64d51e0db1c54042ea0e46671a934063afc57c00cf8c408192e55760f0d3409bc96102783a7640b3da0b1b7df34f40c9fdf4eb72363640df80101ffbdf6f40f1cdc2e7c6cefb4102e23c6644d7d34112e23c6644d7d34121df87cca8f23d4130101b6f92082c413b7d13d889bbe7414671bfeec5e3b441518546426b1e16415a31e3950f2a804162c72fc03c31914169d910bac20d38417118c6ff2ba6774175c117210cfd51417aa4b6ffe4742e417f6d46bc3931534181dbca072218d641839024e4b1dea94184a9308f746e5441850a3f4457aa384184a9308f746e5441839024e4b1dea94181dbca072218d6417f6d46bc393153417aa4b6ffe4742e4175c117210cfd51417118c6ff2ba6774169d910bac20d384162c72fc03c3191415a31e3950f2a8041518546426b1e16414671bfeec5e3b4413b7d13d889bbe74130101b6f92082c4121df87cca8f23d4112e23c6644d7d34102e23c6644d7d340f1cdc2e7c6cefb40df80101ffbdf6f40c9fdf4eb72363640b3da0b1b7df34f409bc96102783a76408192e55760f0d34063afc57c00cf8c4042ea0e46671a93401d64d51e0db1c53ff0000000000000,
  0x401d64d51e0db1c5404a8000000000004070bafb6d70486e4091142411a6da0d40ade4c6fb67d06f40c7290cf568468740e0357896c6221a40f4c7bf2ec356644108a5ef533fbc3c411b419e5913e2ba412c446b04ab920d413b9ff438ed7d47414989d56e910326415667c40baadd2d4162b41ff1a4e86b416dc7802a95363b4176a6804b7b1d9841807c923148a1704186ff93b9353376418ec71986fc53784193c6a2346a2dd941986c526a916a80419d01742c1151c241a09270d883f3e041a23a10129b264541a34d090042330441a3ae5f72dc5e8c41a353957b9cbf7b41a2467d33cca0f041a0a383587fb065419d29b350f83d3c4198973c17fd9b6d4193f0ffde4be835418f15802a8a878c4187440a1f8bf9b44180b539be4e76744176ff93b9353376416e4cb9a6aeff2f416312f2c64cba9b4156e83b3472c741414a2f5febe6defc413c6aa13a814a78412d2fcf59ca4cbe411c446b04ab920d4109b28fd5b33ef440f5ce1847431bc840e125851885618e40c8c26bf65b202040b0357896c6221a4092e80a94166dd2407321c7074cae5b405012f4c551be2a4024975cd57680873ff0000000000000401d64d51e0db1c5,
  0x4042ea0e46671a934070bafb6d70486e4094b8000000000040b4bc3f907fe49740d1c8bbca2fa99440eafe904b8d809a41027fa1074393ff4117360b49cfee7b412aeed826c4a22b413d1efd0c81a73d414d83c71fa4d89f415c2c5558632bdd41696cdbac4900c54175c31177cd30e84181b65f38b8e754418b7a5e54e0f50e4194599a1e742bcc419cd2e2c4801bbb41a38bb48ec978b041a968edefa4391d41afb17c815d5a2341b2fa3bc8463b7741b5d57c13e63e9341b824ef253b8c2f41b9ab846602fd8041ba3ed21524868341b9ce7ed42ffcc741b8672c7e822b3241b6303017f5c9c241b364a55275c98b41b04983ac6bd40a41aa45eb750a4b7841a45655a30d2bd6419e3102046fbbb2419577c422b150ad418d35ef8960488a4182fcbe070cdba341778b32b16af285416bca1ba7f2c28c415f262ed23a16d5415088149b573e4f41408f7271a4e308412f2efd5e744bdf411b74a16ad4e152410676b29d39cfa040f0f172a587f19840d750debd633cfe40bcdbb40b4090f1409f7ca52799277c407d61b3b2043f5940564c9205aabb234028fae0c15ad3893ff00000000000004024975cd57680874042ea0e46671a93,
  0x4063afc57c00cf8c4091142411a6da0d40b4bc3f907fe49740d456400000000040f1161ffa43b32e41096522009eb13d41210844afc0a68b4134e81f835ac2b14147b852a49006474159106cdf3928f54168cfefdc7d5fa641771ed9b05d8d7e41845b41d4c33cc54190fce9eb4a6430419af1c40b7432fd41a4599a1e742bcc41ad53d5e95c680341b4315b720aa7ba41ba9a7d629e2f5241c0c8b131514c0141c44cca5507156741c78d08e403f61c41ca38c10400fd1a41cc07a05d84562141ccc5fe90dc273c41cc5e236917808341cadc4229dae82141c86c2d73e5bfa141c55159150721e141c1db21eb466bcb41bcb039159a2dad41b6164c3f704f4241b048675721a56d41a6f6c0392ba6c8419ef03df3369a754193e111b41879f0418852bbc7e11552417c466e417562ca416f262ed23a16d5416035e5774d9c27414fc41a539113b1413d2b67329b35664128f781ccc112564113c8aad6edbf1540fcc6c9f2ce2d3640e2fdd52567d1f740c666b472ab3ac040a71ae57dab1cca40842af1e4b5b2f8405c3a9e12409338402c90d29d2d43cd3ff00000000000004028fae0c15ad389405012f4c551be2a4063afc57c00cf8c,
  0x408192e55760f0d340ade4c6fb67d06f40d1c8bbca2fa99440f1161ffa43b32e410c1ce000000000412472757ba94639413ad4cbe61ab63f415019f5920d1c804161da564b1b71d041726d041dc424f84181ce6d31fc5d89419030062d710f37419bcaca035a2cad41a6993662898cc841b1733266feeddd41b9a569699fc13e41c1f7782320929d41c808c40881ca9c41cebbb07c65855441d2cd420a0a634a41d607a544e41d8741d8bbc0c0de865341da9ecef1a7830c41db79854f6e35b741db3241de32ebca41d9d1de33e16aeb41d781ee0ab906cc41d484e13c1113c241d12a0b44c81d5841cb80f3cee29a4f41c51715752fec6741beed99c4c4f62241b5a91604fc576941acf0b53ec3cf7841a2697c9d6cd2dc419644e5d2b5327241898b60d1c8be9c417bb714cb8a234c416c59f54abb1b8d415b3d387ccf107e414876f8cebe0b2241346c3a59b528cd411f76e8f5ddd2624106298fef8d9de340ec34e5bc85b1ac40cfe983494f609c40af5e316a0285c14089e20265399c614060f1bdc8f75f1f402f9f6e4990f2273ff0000000000000402c90d29d2d43cd40564c9205aabb23407321c7074cae5b408192e55760f0d3,
  0x409bc96102783a7640c7290cf568468740eafe904b8d809a41096522009eb13d412472757ba94639413d18c4000000004152aaa110fa5d554165e4f48c2c69374177b61f99cec04e4187e3c55e87956941968601114c817841a3f6c6c3b25b7c41b0b2cc607ffd9741ba70f21ed2c30441c3dd8bcc66714d41cc629448e480c341d3513b4d70b02841d914ba8d58219241df198ab99c25df41e26e774d42abf941e4e63cd173cdc141e6ae99c48fde0541e79216abcd633241e775534635a72a41e65c504725340941e4698f38e2f3b841e1d749a22d513441ddd916f512119a41d7e1e1e3ee1a1441d243be660e4c6241caad5c6140d4fa41c2952760c2755641b8a8a2f738af1b41af1da7381ab62d41a2a1b698312f8c41952058b2a5019b41869e3658718fe84176c98538155d78416584672823e5864152f346f5107add413ef21a3a9072ff41273feb44e8d27c410fd6feee61683b40f39f960ec7f48040d568469bc2dc2f40b42eda84be878c408fbdfbe78d505e4063a4c99b6c69874031257c5187fd083ff0000000000000402f9f6e4990f227405c3a9e12409338407d61b3b2043f594092e80a94166dd2409bc96102783a76,
  0x40b3da0b1b7df34f40e0357896c6221a41027fa1074393ff41210844afc0a68b413ad4cbe61ab63f4152aaa110fa5d55416767f300000000417ad0a3e50d6ec4418c59581ac68368419bdd948347d79e41a99d76b829ce3f41b61f439f0cd50841c20442541ecc9e41cbc1e9af12729f41d44669eaec5bf941dc24860c3bcb2d41e296cb4d80016941e7676e9b058f8c41ec1d0fc2b5734941f01fcc4345892041f1ac777ee01f4e41f28511d021603941f28edae6a4414a41f1c91702988bc041f04d1bfe4a7f8641ec92427537913841e7ee805877987241e32602eae51daa41dd3ff2333cd6c441d54de5f4433cd341cd8fa1c18c9f7841c381f8a125233941b872ba3e5e216d41ad090faebca64a41a04ca140cb615741913fe57addd536418125ff1a6d2d8c416fe53a45f3dead415b9ba5152f699441461aa505429b4841303e3cd20e202b4115b1f7aba4cbe140f9ff429debceef40db778e4db735df40b8f852d24976ca4092d5646fbd87f8406637010ecf504b4032548eb9151e853ff00000000000004031257c5187fd084060f1bdc8f75f1f40842af1e4b5b2f8409f7ca52799277c40b0357896c6221a40b3da0b1b7df34f,
  0x40c9fdf4eb72363640f4c7bf2ec356644117360b49cfee7b4134e81f835ac2b1415019f5920d1c804165e4f48c2c6937417ad0a3e50d6ec4418dfd2f58000000419eee696238a7b941ada4ca283a67de41ba8d0a612f881241c653b174a226c941d1b126057d1edd41da8009c837d17e41e2cdb98e5333e941e95524ada9580d41f039d0ea8eb1e641f3ca52292977ca41f7017a7ca81d6541f982815a3a64fc41faff3cb6e5a4d541fb4774f4db359941fa52b0b2746f4f41f841c911c6fe9041f557e1f917487141f1eccb4aba7eae41ecb9046057ac7f41e5eff5a66da11341dfea04dcd3317141d61528043d0c0841cd074457b295af41c21789f5fc13d841b55710b489f0bb41a7c299de49a0a24198e5cc257a309e418877945260a14e417673dac9d65f0d416323f25152e268414e1f6ec867c4674135b4adbf3bbcc8411c5b36f39dc0c2410091e9a7dca85c40e104e3fa08c66940bdf80e72c5cb204095cbad6abe652e4068a8af331aca4840336406304453053ff00000000000004032548eb9151e854063a4c99b6c69874089e20265399c6140a71ae57dab1cca40bcdbb40b4090f140c8c26bf65b202040c9fdf4eb723636,
  0x40df80101ffbdf6f4108a5ef533fbc3c412aeed826c4a22b4147b852a49006474161da564b1b71d04177b61f99cec04e418c59581ac68368419eee696238a7b941af1b099e00000041bd0be080780f3d41c954d0edc3581041d4b9c236e5a52441dfef0e15e370ba41e73b9ef83131da41f0001b5dd497a241f4e721b39dd97b41f9f0b7cb228d1341fe9e443f17d0b7420134095d7f168942026afdc7b2b00c4202cbaaf9ce648c420249e03191465a4200f80485db141141fe05e2b3606e4e41f950e6403ef9b241f45647182ca24041ef1b42ce316ddd41e6a06b86641dda41df45650576c52241d47fb4fc869f7741c9730d381e7eeb41bddb4ee72c0f1b41b0820a8ac7e3af41a1279b551cc1544190b12544014f9a417e48777494e1e34169794e2aa6e2e44153bde8b2f5bcf5413bf65cad0bc0624121e9056bbd4b944104791da255863840e4823d1a44b78d40c18dca1a561aee4098ba7f636b6b44406af9ff552f5dbf403458d455549c1a3ff00000000000004033640630445305406637010ecf504b408fbdfbe78d505e40af5e316a0285c140c666b472ab3ac040d750debd633cfe40e125851885618e40df80101ffbdf6f,
  0x40f1cdc2e7c6cefb411b419e5913e2ba413d1efd0c81a73d4159106cdf3928f541726d041dc424f84187e3c55e879569419bdd948347d79e41ada4ca283a67de41bd0be080780f3d41ca68e35f80000041d668cdc932971741e1d35de00b26bb41eaae4b6a38ec3441f2d71bd9ae753741f92a016754d4d941ffd8ce943a90aa42031f9a2b098e5c4205d1d4f760dd654207ac812776c085420870b01a5f61284208047eb454adc94206788a7ef84e71420403ec77959ede4200f80485db141141fb5f6a0be38f1941f4fd5dcbd7b6b041ee93755f707e6c41e520f4d2f64b0a41dba9fc7aebe01941d1207b7c5325bd41c4032838478e8741b602b8b90a84e941a6b78f835ebd954195ebba6707ff714183b053d932d23441705f247621353541590a17eb94bfc0414176f3092164bf4125fd075ee2fa244108a58fd9c7a88c40e8261537895b0240c428b3fcdc6379409b9b724daee7ec406d2b0c30200315403536948017480f3ff0000000000000403458d455549c1a4068a8af331aca484092d5646fbd87f840b42eda84be878c40cfe983494f609c40e2fdd52567d1f740f0f172a587f19840f5ce1847431bc840f1cdc2e7c6cefb,
  0x4102e23c6644d7d3412c446b04ab920d414d83c71fa4d89f4168cfefdc7d5fa64181ce6d31fc5d8941968601114c817841a99d76b829ce3f41ba8d0a612f881241c954d0edc3581041d668cdc932971741e27c9f2940000041ec920d3fc0000041f4c0b8ee27e19941fc6ba207274fba4202630679328453420684e7b34b1699420a24a56a4113a7420cccec04c3cac5420e21c34da5f6bb420df4853fa179d7420c4e121e5ed3bf42096c41d7de538d4205b3838a7354154201992315841a6741fb18fc76770c9e41f3ca0ef477988441eb62cf0727b41241e1eda6d2aa6a6741d62b6aa444b65741c9d5f7a6b37bdf41bc4d3cfef59f8f41ad0d73f96f2ac9419bd7da1fd379594188ccf214bf4b2f41746b45e3d43ffb415edee4d9efa61f41453f2507859bd2412a586701828a0a410d05f05e1d47c040ebe2745569d82e40c6c4860cddb49b409e68e45c6b8802406f3be727ca10a340360000000000003ff0000000000000403536948017480f406af9ff552f5dbf4095cbad6abe652e40b8f852d24976ca40d568469bc2dc2f40ec34e5bc85b1ac40fcc6c9f2ce2d36410676b29d39cfa04109b28fd5b33ef44102e23c6644d7d3,
  0x4112e23c6644d7d3413b9ff438ed7d47415c2c5558632bdd41771ed9b05d8d7e419030062d710f3741a3f6c6c3b25b7c41b61f439f0cd50841c653b174a226c941d4b9c236e5a52441e1d35de00b26bb41ec920d3fc0000041f56d89efd0000041fe2f98a03a0253420406039c500f71420912abbc8ab472420daf316c5757f94210a2f4e68680df4211ac4b02ec823e4211ce21f3b386294211051d29f8d6ae420ee0cdf295fe44420a94164a686ea04205b3838a7354154200cc5babcf8d9141f8a259e00f22be41f1173b760a324341e6681dc009363d41dbb51917075ea041d01f936031f8fa41c19d85f1a8ebbb41b2029b2de21fb841a12adbcd9324eb418e5fd6ae5b10044178ccf214bf4b2f41629010fda9ae87414942010f66fc48412ee77badd99cd44110c3e47553120640efa9634f65c2a340c9598107d495fc40a08eed20a13d884070964e03dd90014036b733bfd8c6483ff00000000000004036000000000000406d2b0c302003154098ba7f636b6b4440bdf80e72c5cb2040db778e4db735df40f39f960ec7f4804106298fef8d9de34113c8aad6edbf15411b74a16ad4e152411c446b04ab920d4112e23c6644d7d3,
  0x4121df87cca8f23d414989d56e91032641696cdbac4900c541845b41d4c33cc5419bcaca035a2cad41b0b2cc607ffd9741c20442541ecc9e41d1b126057d1edd41dfef0e15e370ba41eaae4b6a38ec3441f4c0b8ee27e19941fe2f98a03a0253420498ebc8c00000420a71ce3ec7294f42100135d6c7776042124b8061c004d24213c63ba719acfe42143a7178c9bdce42139883d718b2d24211fb784a28c9cd420f43c2d83adc464209bdbb28e9c11f42040feccfe65ebd41fd948223a4f20341f49acf96baf96241eb15eb43044d4a41e0c4d03b9cc89b41d384198307511e41c54b310ebef69c41b5b6944ec5f51341a49d3c70aa1c744192235943cf32c7417d6ade59a0c2ef4165d5ef57ca7be5414d6b214b6e2b914131ca663ccc0b3641130bf8825eb5f540f1b68f88bcfa5940cbe0656a0aace840a1daf3a699540a40717e998b426fc940375ddc4efa914a3ff00000000000004036b733bfd8c648406f3be727ca10a3409b9b724daee7ec40c18dca1a561aee40e104e3fa08c66940f9ff429debceef410fd6feee61683b411f76e8f5ddd2624128f781ccc11256412f2efd5e744bdf412d2fcf59ca4cbe4121df87cca8f23d,
  0x4130101b6f92082c415667c40baadd2d4175c31177cd30e84190fce9eb4a643041a6993662898cc841ba70f21ed2c30441cbc1e9af12729f41da8009c837d17e41e73b9ef83131da41f2d71bd9ae753741fc6ba207274fba420406039c500f71420a71ce3ec7294f421068f41d20000042132da4c2bb0c3f421523c13636e0d1421600bba0311df34215a46c3d2e7d164214207d11d0d7244211b33cc951dc29420d6fa5536d943b4207224db7b834a842012bf22eb9e19541f80d65370731f241efbeadabee5f7b41e3b4a75ca125bd41d6f6e5000113a841c90e6659cc6aed41b9841ae38f6b2d41a829041f2d8b7341952c46cb4360ad418113c606f8cf8841692dd4141aa2a94150d2169e4be435413424d7809126384115517d06f10a4840f39022832713cb40ce5273879dcbe540a3168d8febacbb407256d92647b8234037f552f57675643ff000000000000040375ddc4efa914a4070964e03dd9001409e68e45c6b880240c428b3fcdc637940e4823d1a44b78d410091e9a7dca85c4115b1f7aba4cbe141273feb44e8d27c41346c3a59b528cd413d2b67329b356641408f7271a4e308413c6aa13a814a784130101b6f92082c,
  0x413b7d13d889bbe74162b41ff1a4e86b4181b65f38b8e754419af1c40b7432fd41b1733266feeddd41c3dd8bcc66714d41d44669eaec5bf941e2cdb98e5333e941f0001b5dd497a241f92a016754d4d94202630679328453420912abbc8ab47242100135d6c7776042132da4c2bb0c3f42159cf696c000004216f0f071c296054216f5a4aae748404215ae11148c46f14213526580750d23421040dd44c582d64209cd2ad7c2a01842034fd7f06cda3f41fb3c5cfa77765741f21215bc9fc5af41e6866ac3bfc46e41da51e9b6e6103641ccc168d523341241bd487e14b4a36541abb0c3c3c315b3419833c8327b46d14183713c418a0500416c82f8da958d254152eac947aaf88741367771e963671541178ac9a772c7ac40f55afce991bc1640d054b5cd803cde40a43ff9add2c43c40731f0f09210cf640387eb1990b697a3ff00000000000004037f552f576756440717e998b426fc940a08eed20a13d8840c6c4860cddb49b40e8261537895b024104791da2558638411c5b36f39dc0c241303e3cd20e202b413ef21a3a9072ff414876f8cebe0b22414fc41a539113b1415088149b573e4f414a2f5febe6defc413b7d13d889bbe7,
  0x414671bfeec5e3b4416dc7802a95363b418b7a5e54e0f50e41a4599a1e742bcc41b9a569699fc13e41cc629448e480c341dc24860c3bcb2d41e95524ada9580d41f4e721b39dd97b41ffd8ce943a90aa420684e7b34b1699420daf316c5757f942124b8061c004d2421523c13636e0d14216f0f071c2960542176a0b2350000042167ee4067fd91942145b5a21a26aa742115a9660337939420bde656a09fb9742051118b842d59841fdf59979e9cef941f4039ea0bb489541e91535d43d49e741dd6d373755112d41d01e1cb6b52e7141c06f655f1cf21641af151e5fad4da3419b218ae627a8044185bcb7e3c64098416fbfca94c292d44154f3a08ea805b14138b696e7208afd4119ae72ff8c910240f71105996c86de40d16fc6e6dc52ea40a555a82a09dcf04073d73cdc6739a84038fae0c15ad3893ff000000000000040387eb1990b697a407256d92647b82340a1daf3a699540a40c9598107d495fc40ebe2745569d82e4108a58fd9c7a88c4121e9056bbd4b944135b4adbf3bbcc841461aa505429b484152f346f5107add415b3d387ccf107e416035e5774d9c27415f262ed23a16d54156e83b3472c741414671bfeec5e3b4,
  0x41518546426b1e164176a6804b7b1d984194599a1e742bcc41ad53d5e95c680341c1f7782320929d41d3513b4d70b02841e296cb4d80016941f039d0ea8eb1e641f9f0b7cb228d1342031f9a2b098e5c420a24a56a4113a74210a2f4e68680df4213c63ba719acfe421600bba0311df34216f5a4aae7484042167ee4067fd9194214b66c507800004211eda9bc21eba6420d2d865cc6701f42065016a2a8dd77420006094ce5434241f59688deca419241eb3db4333fa63841e010ddbe27642341d1ab8cb939403e41c210f2729b640e41b11b32532bd91e419ddcf3cab347564187e4f916b7272641716757217a5e6c4156e0b26e1acec3413ad6f115e140fc411bb374a4877ff840f8ac86c7e25fb740d277cd1ee9ff7f40a65635fe22220f40747f63e4b3df0840396aa1b6b0ec773ff00000000000004038fae0c15ad38940731f0f09210cf640a3168d8febacbb40cbe0656a0aace840efa9634f65c2a3410d05f05e1d47c04125fd075ee2fa24413bf65cad0bc062414e1f6ec867c467415b9ba5152f6994416584672823e586416c59f54abb1b8d416f262ed23a16d5416bca1ba7f2c28c416312f2c64cba9b41518546426b1e16,
  0x415a31e3950f2a8041807c923148a170419cd2e2c4801bbb41b4315b720aa7ba41c808c40881ca9c41d914ba8d58219241e7676e9b058f8c41f3ca52292977ca41fe9e443f17d0b74205d1d4f760dd65420cccec04c3cac54211ac4b02ec823e42143a7178c9bdce4215a46c3d2e7d164215ae11148c46f142145b5a21a26aa74211eda9bc21eba6420da045543000004206f5b0c424a84d4200ae0b0ba8edff41f6b220eb1d4e1e41ece0e98d94795041e126070185af3d41d2f68e81df7cbe41c37758dc50662041b27b1e6ac4053e41a02721e7a2bc154189d94e469f8c944172cd61b596256d4158a68c7cf27248413ccdb797ad533b411d915726eb015b40fa283aec20bab640d36a6880b442ac40a7406949642ff9407517851d525fce4039ce95f75281f53ff000000000000040396aa1b6b0ec774073d73cdc6739a840a43ff9add2c43c40ce5273879dcbe540f1b68f88bcfa594110c3e475531206412a586701828a0a414176f3092164bf4153bde8b2f5bcf5416323f25152e268416fe53a45f3dead4176c98538155d78417bb714cb8a234c417c466e417562ca41778b32b16af285416e4cb9a6aeff2f415a31e3950f2a80,
  0x4162c72fc03c31914186ff93b935337641a38bb48ec978b041ba9a7d629e2f5241cebbb07c65855441df198ab99c25df41ec1d0fc2b5734941f7017a7ca81d65420134095d7f16894207ac812776c085420e21c34da5f6bb4211ce21f3b3862942139883d718b2d24214207d11d0d7244213526580750d2342115a9660337939420d2d865cc6701f4206f5b0c424a84d4200e75c9a20000041f74496d5a78f0a41ede6b05db4749d41e1e78335783c1741d3ef4d9b857a7441c493164598e1f441b39c9ec7b462ef41a12fd9e38cbd9e418b8a41f25f091e4174084ecbffbe71415a3a87f3052d41413e90ebea812bf9411f4052139c682a40fb7f57f7983c5a40d4457914715d2c40a8132e55cf56c940759fa14aa8784e403a2744ce9674f43ff00000000000004039ce95f75281f540747f63e4b3df0840a555a82a09dcf040d054b5cd803cde40f39022832713cb41130bf8825eb5f5412ee77badd99cd441453f2507859bd241590a17eb94bfc04169794e2aa6e2e4417673dac9d65f0d418125ff1a6d2d8c41869e3658718fe841898b60d1c8be9c418852bbc7e115524182fcbe070cdba34176ff93b93533764162c72fc03c3191,
  0x4169d910bac20d38418ec71986fc537841a968edefa4391d41c0c8b131514c0141d2cd420a0a634a41e26e774d42abf941f01fcc4345892041f982815a3a64fc42026afdc7b2b00c420870b01a5f6128420df4853fa179d74211051d29f8d6ae4211fb784a28c9cd4211b33cc951dc29421040dd44c582d6420bde656a09fb9742065016a2a8dd774200ae0b0ba8edff41f74496d5a78f0a41ee3fb32ec0000041e24af31535552e41d489a642f5149f41c557a17f1677c041b47431d9a386be41a1ff3cb2c0ea34418cea3b059583c041750f777c57d368415b931644a7a09041400bc8c042ea3741205cb4fa550f0640fcad9902b1d8b940d5071ee04934cb40a8cd95296e9377407617b907289f25403a751f9447b7243ff0000000000000403a2744ce9674f4407517851d525fce40a65635fe22220f40d16fc6e6dc52ea40f55afce991bc164115517d06f10a484131ca663ccc0b36414942010f66fc48415edee4d9efa61f41705f2476213535417e48777494e1e3418877945260a14e41913fe57addd53641952058b2a5019b419644e5d2b532724193e111b41879f0418d35ef8960488a4180b539be4e76744169d910bac20d38,
  0x417118c6ff2ba6774193c6a2346a2dd941afb17c815d5a2341c44cca5507156741d607a544e41d8741e4e63cd173cdc141f1ac777ee01f4e41faff3cb6e5a4d54202cbaaf9ce648c4208047eb454adc9420c4e121e5ed3bf420ee0cdf295fe44420f43c2d83adc46420d6fa5536d943b4209cd2ad7c2a01842051118b842d598420006094ce5434241f6b220eb1d4e1e41ede6b05db4749d41e24af31535552e41d4bdf73600000041c5bc2c5584b02341b4f926d703e06f41a28dd45321cc66418dee095b6ea5294175db8f727f42ff415ca804b51254b74140acef3e82d3634120fb4528ee6b1740fdaf468c8ef47440d5adb9e8dd056a40a96ecf8a2e12b240767fcccc928b33403ab884ef7022833ff0000000000000403a751f9447b72440759fa14aa8784e40a7406949642ff940d277cd1ee9ff7f40f71105996c86de41178ac9a772c7ac413424d780912638414d6b214b6e2b9141629010fda9ae8741746b45e3d43ffb4183b053d932d2344190b12544014f9a4198e5cc257a309e41a04ca140cb615741a2a1b698312f8c41a2697c9d6cd2dc419ef03df3369a75419577c422b150ad4187440a1f8bf9b4417118c6ff2ba677,
  0x4175c117210cfd5141986c526a916a8041b2fa3bc8463b7741c78d08e403f61c41d8bbc0c0de865341e6ae99c48fde0541f28511d021603941fb4774f4db3599420249e03191465a4206788a7ef84e7142096c41d7de538d420a94164a686ea04209bdbb28e9c11f4207224db7b834a842034fd7f06cda3f41fdf59979e9cef941f59688deca419241ece0e98d94795041e1e78335783c1741d489a642f5149f41c5bc2c5584b02341b526152800000041a2d6736c53f36f418e8d58f517fb2b417666e3e5c60c9a415d72b57f99ad04414128b28974025b4121794dd88fe1d840fe813d6623926940d637ea31a55df240a9f62f60d2b0124076d7dcfaa45e0c403af1c35b8c8d9f3ff0000000000000403ab884ef702283407617b907289f2540a8132e55cf56c940d36a6880b442ac40f8ac86c7e25fb74119ae72ff8c910241367771e96367154150d2169e4be4354165d5ef57ca7be54178ccf214bf4b2f4188ccf214bf4b2f4195ebba6707ff7141a1279b551cc15441a7c299de49a0a241ad090faebca64a41af1da7381ab62d41acf0b53ec3cf7841a6f6c0392ba6c8419e3102046fbbb2418f15802a8a878c4175c117210cfd51,
  0x417aa4b6ffe4742e419d01742c1151c241b5d57c13e63e9341ca38c10400fd1a41da9ecef1a7830c41e79216abcd633241f28edae6a4414a41fa52b0b2746f4f4200f80485db1411420403ec77959ede4205b3838a7354154205b3838a73541542040feccfe65ebd42012bf22eb9e19541fb3c5cfa77765741f4039ea0bb489541eb3db4333fa63841e126070185af3d41d3ef4d9b857a7441c557a17f1677c041b4f926d703e06f41a2d6736c53f36f418ec307800000004176ad8c72761c37415dee4d77baee0c41417c9a8cef5c444121d4cacb657aca40ff20f45bde159540d6a48fbd33a81d40aa63256c79435340771fe9dbfaef9c403b211b1c70d0233ff0000000000000403af1c35b8c8d9f40767fcccc928b3340a8cd95296e937740d4457914715d2c40fa283aec20bab6411bb374a4877ff84138b696e7208afd4152eac947aaf88741692dd4141aa2a9417d6ade59a0c2ef418e5fd6ae5b1004419bd7da1fd3795941a6b78f835ebd9541b0820a8ac7e3af41b55710b489f0bb41b872ba3e5e216d41b8a8a2f738af1b41b5a91604fc576941b048675721a56d41a45655a30d2bd64193f0ffde4be835417aa4b6ffe4742e,
  0x417f6d46bc39315341a09270d883f3e041b824ef253b8c2f41cc07a05d84562141db79854f6e35b741e775534635a72a41f1c91702988bc041f841c911c6fe9041fe05e2b3606e4e4200f80485db14114201992315841a674200cc5babcf8d9141fd948223a4f20341f80d65370731f241f21215bc9fc5af41e91535d43d49e741e010ddbe27642341d2f68e81df7cbe41c493164598e1f441b47431d9a386be41a28dd45321cc66418e8d58f517fb2b4176ad8c72761c37415e17d5400000004141a6fac32fb71341220c4642eb971840ff8c80accfbbf740d6f2ca8d5fb7fa40aab5403b9b8acf407757f3a9a035ac403b46bfc05aeb893ff0000000000000403b211b1c70d0234076d7dcfaa45e0c40a96ecf8a2e12b240d5071ee04934cb40fb7f57f7983c5a411d915726eb015b413ad6f115e140fc4154f3a08ea805b1416c82f8da958d25418113c606f8cf884192235943cf32c741a12adbcd9324eb41ad0d73f96f2ac941b602b8b90a84e941bddb4ee72c0f1b41c21789f5fc13d841c381f8a125233941c2952760c2755641beed99c4c4f62241b6164c3f704f4241aa45eb750a4b784198973c17fd9b6d417f6d46bc393153,
  0x4181dbca072218d641a23a10129b264541b9ab846602fd8041ccc5fe90dc273c41db3241de32ebca41e65c504725340941f04d1bfe4a7f8641f557e1f917487141f950e6403ef9b241fb5f6a0be38f1941fb18fc76770c9e41f8a259e00f22be41f49acf96baf96241efbeadabee5f7b41e6866ac3bfc46e41dd6d373755112d41d1ab8cb939403e41c37758dc50662041b39c9ec7b462ef41a1ff3cb2c0ea34418dee095b6ea529417666e3e5c60c9a415dee4d77baee0c4141a6fac32fb71341221ede0000000040ffc2995aa82fe840d721faa366de3440aaec2b625ee68f40777ffa8d9d5382403b62d946c44ef23ff0000000000000403b46bfc05aeb8940771fe9dbfaef9c40a9f62f60d2b01240d5adb9e8dd056a40fcad9902b1d8b9411f4052139c682a413ccdb797ad533b4156e0b26e1acec3416fbfca94c292d44183713c418a050041952c46cb4360ad41a49d3c70aa1c7441b2029b2de21fb841bc4d3cfef59f8f41c4032838478e8741c9730d381e7eeb41cd074457b295af41cd8fa1c18c9f7841caad5c6140d4fa41c51715752fec6741bcb039159a2dad41b04983ac6bd40a419d29b350f83d3c4181dbca072218d6,
  0x41839024e4b1dea941a34d090042330441ba3ed21524868341cc5e236917808341d9d1de33e16aeb41e4698f38e2f3b841ec92427537913841f1eccb4aba7eae41f45647182ca24041f4fd5dcbd7b6b041f3ca0ef477988441f1173b760a324341eb15eb43044d4a41e3b4a75ca125bd41da51e9b6e6103641d01e1cb6b52e7141c210f2729b640e41b27b1e6ac4053e41a12fd9e38cbd9e418cea3b059583c04175db8f727f42ff415d72b57f99ad0441417c9a8cef5c4441220c4642eb971840ffc2995aa82fe840d731c00000000040ab07aee824fe06407797fea4ca0c66403b7584fc1553533ff0000000000000403b62d946c44ef2407757f3a9a035ac40aa63256c79435340d637ea31a55df240fdaf468c8ef47441205cb4fa550f06413e90ebea812bf94158a68c7cf2724841716757217a5e6c4185bcb7e3c64098419833c8327b46d141a829041f2d8b7341b5b6944ec5f51341c19d85f1a8ebbb41c9d5f7a6b37bdf41d1207b7c5325bd41d47fb4fc869f7741d61528043d0c0841d54de5f4433cd341d243be660e4c6241cb80f3cee29a4f41c1db21eb466bcb41b364a55275c98b41a0a383587fb06541839024e4b1dea9,
  0x4184a9308f746e5441a3ae5f72dc5e8c41b9ce7ed42ffcc741cadc4229dae82141d781ee0ab906cc41e1d749a22d513441e7ee805877987241ecb9046057ac7f41ef1b42ce316ddd41ee93755f707e6c41eb62cf0727b41241e6681dc009363d41e0c4d03b9cc89b41d6f6e5000113a841ccc168d523341241c06f655f1cf21641b11b32532bd91e41a02721e7a2bc15418b8a41f25f091e41750f777c57d368415ca804b51254b7414128b28974025b4121d4cacb657aca40ff8c80accfbbf740d721faa366de3440ab07aee824fe064077a00000000000403b7ed6159fadc73ff0000000000000403b7584fc15535340777ffa8d9d538240aab5403b9b8acf40d6a48fbd33a81d40fe813d662392694120fb4528ee6b1741400bc8c042ea37415a3a87f3052d414172cd61b596256d4187e4f916b72726419b218ae627a80441abb0c3c3c315b341b9841ae38f6b2d41c54b310ebef69c41d01f936031f8fa41d62b6aa444b65741dba9fc7aebe01941df45650576c52241dfea04dcd3317141dd3ff2333cd6c441d7e1e1e3ee1a1441d12a0b44c81d5841c55159150721e141b6303017f5c9c241a2467d33cca0f04184a9308f746e54,
  0x41850a3f4457aa3841a353957b9cbf7b41b8672c7e822b3241c86c2d73e5bfa141d484e13c1113c241ddd916f512119a41e32602eae51daa41e5eff5a66da11341e6a06b86641dda41e520f4d2f64b0a41e1eda6d2aa6a6741dbb51917075ea041d384198307511e41c90e6659cc6aed41bd487e14b4a36541af151e5fad4da3419ddcf3cab347564189d94e469f8c944174084ecbffbe71415b931644a7a0904140acef3e82d3634121794dd88fe1d840ff20f45bde159540d6f2ca8d5fb7fa40aaec2b625ee68f407797fea4ca0c66403b7ed6159fadc73ff0000000000000403b7ed6159fadc7407797fea4ca0c6640aaec2b625ee68f40d6f2ca8d5fb7fa40ff20f45bde15954121794dd88fe1d84140acef3e82d363415b931644a7a0904174084ecbffbe714189d94e469f8c94419ddcf3cab3475641af151e5fad4da341bd487e14b4a36541c90e6659cc6aed41d384198307511e41dbb51917075ea041e1eda6d2aa6a6741e520f4d2f64b0a41e6a06b86641dda41e5eff5a66da11341e32602eae51daa41ddd916f512119a41d484e13c1113c241c86c2d73e5bfa141b8672c7e822b3241a353957b9cbf7b41850a3f4457aa38,
  0x4184a9308f746e5441a2467d33cca0f041b6303017f5c9c241c55159150721e141d12a0b44c81d5841d7e1e1e3ee1a1441dd3ff2333cd6c441dfea04dcd3317141df45650576c52241dba9fc7aebe01941d62b6aa444b65741d01f936031f8fa41c54b310ebef69c41b9841ae38f6b2d41abb0c3c3c315b3419b218ae627a8044187e4f916b727264172cd61b596256d415a3a87f3052d4141400bc8c042ea374120fb4528ee6b1740fe813d6623926940d6a48fbd33a81d40aab5403b9b8acf40777ffa8d9d5382403b7584fc1553533ff0000000000000403b7ed6159fadc74077a0000000000040ab07aee824fe0640d721faa366de3440ff8c80accfbbf74121d4cacb657aca414128b28974025b415ca804b51254b741750f777c57d368418b8a41f25f091e41a02721e7a2bc1541b11b32532bd91e41c06f655f1cf21641ccc168d523341241d6f6e5000113a841e0c4d03b9cc89b41e6681dc009363d41eb62cf0727b41241ee93755f707e6c41ef1b42ce316ddd41ecb9046057ac7f41e7ee805877987241e1d749a22d513441d781ee0ab906cc41cadc4229dae82141b9ce7ed42ffcc741a3ae5f72dc5e8c4184a9308f746e54,
  0x41839024e4b1dea941a0a383587fb06541b364a55275c98b41c1db21eb466bcb41cb80f3cee29a4f41d243be660e4c6241d54de5f4433cd341d61528043d0c0841d47fb4fc869f7741d1207b7c5325bd41c9d5f7a6b37bdf41c19d85f1a8ebbb41b5b6944ec5f51341a829041f2d8b73419833c8327b46d14185bcb7e3c6409841716757217a5e6c4158a68c7cf27248413e90ebea812bf941205cb4fa550f0640fdaf468c8ef47440d637ea31a55df240aa63256c794353407757f3a9a035ac403b62d946c44ef23ff0000000000000403b7584fc155353407797fea4ca0c6640ab07aee824fe0640d731c00000000040ffc2995aa82fe841220c4642eb971841417c9a8cef5c44415d72b57f99ad044175db8f727f42ff418cea3b059583c041a12fd9e38cbd9e41b27b1e6ac4053e41c210f2729b640e41d01e1cb6b52e7141da51e9b6e6103641e3b4a75ca125bd41eb15eb43044d4a41f1173b760a324341f3ca0ef477988441f4fd5dcbd7b6b041f45647182ca24041f1eccb4aba7eae41ec92427537913841e4698f38e2f3b841d9d1de33e16aeb41cc5e236917808341ba3ed21524868341a34d090042330441839024e4b1dea9,
  0x4181dbca072218d6419d29b350f83d3c41b04983ac6bd40a41bcb039159a2dad41c51715752fec6741caad5c6140d4fa41cd8fa1c18c9f7841cd074457b295af41c9730d381e7eeb41c4032838478e8741bc4d3cfef59f8f41b2029b2de21fb841a49d3c70aa1c7441952c46cb4360ad4183713c418a0500416fbfca94c292d44156e0b26e1acec3413ccdb797ad533b411f4052139c682a40fcad9902b1d8b940d5adb9e8dd056a40a9f62f60d2b01240771fe9dbfaef9c403b46bfc05aeb893ff0000000000000403b62d946c44ef240777ffa8d9d538240aaec2b625ee68f40d721faa366de3440ffc2995aa82fe841221ede000000004141a6fac32fb713415dee4d77baee0c417666e3e5c60c9a418dee095b6ea52941a1ff3cb2c0ea3441b39c9ec7b462ef41c37758dc50662041d1ab8cb939403e41dd6d373755112d41e6866ac3bfc46e41efbeadabee5f7b41f49acf96baf96241f8a259e00f22be41fb18fc76770c9e41fb5f6a0be38f1941f950e6403ef9b241f557e1f917487141f04d1bfe4a7f8641e65c504725340941db3241de32ebca41ccc5fe90dc273c41b9ab846602fd8041a23a10129b26454181dbca072218d6,
  0x417f6d46bc3931534198973c17fd9b6d41aa45eb750a4b7841b6164c3f704f4241beed99c4c4f62241c2952760c2755641c381f8a125233941c21789f5fc13d841bddb4ee72c0f1b41b602b8b90a84e941ad0d73f96f2ac941a12adbcd9324eb4192235943cf32c7418113c606f8cf88416c82f8da958d254154f3a08ea805b1413ad6f115e140fc411d915726eb015b40fb7f57f7983c5a40d5071ee04934cb40a96ecf8a2e12b24076d7dcfaa45e0c403b211b1c70d0233ff0000000000000403b46bfc05aeb89407757f3a9a035ac40aab5403b9b8acf40d6f2ca8d5fb7fa40ff8c80accfbbf741220c4642eb97184141a6fac32fb713415e17d5400000004176ad8c72761c37418e8d58f517fb2b41a28dd45321cc6641b47431d9a386be41c493164598e1f441d2f68e81df7cbe41e010ddbe27642341e91535d43d49e741f21215bc9fc5af41f80d65370731f241fd948223a4f2034200cc5babcf8d914201992315841a674200f80485db141141fe05e2b3606e4e41f841c911c6fe9041f1c91702988bc041e775534635a72a41db79854f6e35b741cc07a05d84562141b824ef253b8c2f41a09270d883f3e0417f6d46bc393153,
  0x417aa4b6ffe4742e4193f0ffde4be83541a45655a30d2bd641b048675721a56d41b5a91604fc576941b8a8a2f738af1b41b872ba3e5e216d41b55710b489f0bb41b0820a8ac7e3af41a6b78f835ebd95419bd7da1fd37959418e5fd6ae5b1004417d6ade59a0c2ef41692dd4141aa2a94152eac947aaf8874138b696e7208afd411bb374a4877ff840fa283aec20bab640d4457914715d2c40a8cd95296e937740767fcccc928b33403af1c35b8c8d9f3ff0000000000000403b211b1c70d02340771fe9dbfaef9c40aa63256c79435340d6a48fbd33a81d40ff20f45bde15954121d4cacb657aca41417c9a8cef5c44415dee4d77baee0c4176ad8c72761c37418ec3078000000041a2d6736c53f36f41b4f926d703e06f41c557a17f1677c041d3ef4d9b857a7441e126070185af3d41eb3db4333fa63841f4039ea0bb489541fb3c5cfa77765742012bf22eb9e19542040feccfe65ebd4205b3838a7354154205b3838a735415420403ec77959ede4200f80485db141141fa52b0b2746f4f41f28edae6a4414a41e79216abcd633241da9ecef1a7830c41ca38c10400fd1a41b5d57c13e63e93419d01742c1151c2417aa4b6ffe4742e,
  0x4175c117210cfd51418f15802a8a878c419e3102046fbbb241a6f6c0392ba6c841acf0b53ec3cf7841af1da7381ab62d41ad090faebca64a41a7c299de49a0a241a1279b551cc1544195ebba6707ff714188ccf214bf4b2f4178ccf214bf4b2f4165d5ef57ca7be54150d2169e4be43541367771e96367154119ae72ff8c910240f8ac86c7e25fb740d36a6880b442ac40a8132e55cf56c9407617b907289f25403ab884ef7022833ff0000000000000403af1c35b8c8d9f4076d7dcfaa45e0c40a9f62f60d2b01240d637ea31a55df240fe813d662392694121794dd88fe1d8414128b28974025b415d72b57f99ad04417666e3e5c60c9a418e8d58f517fb2b41a2d6736c53f36f41b526152800000041c5bc2c5584b02341d489a642f5149f41e1e78335783c1741ece0e98d94795041f59688deca419241fdf59979e9cef942034fd7f06cda3f4207224db7b834a84209bdbb28e9c11f420a94164a686ea042096c41d7de538d4206788a7ef84e71420249e03191465a41fb4774f4db359941f28511d021603941e6ae99c48fde0541d8bbc0c0de865341c78d08e403f61c41b2fa3bc8463b7741986c526a916a804175c117210cfd51,
  0x417118c6ff2ba6774187440a1f8bf9b4419577c422b150ad419ef03df3369a7541a2697c9d6cd2dc41a2a1b698312f8c41a04ca140cb61574198e5cc257a309e4190b12544014f9a4183b053d932d23441746b45e3d43ffb41629010fda9ae87414d6b214b6e2b91413424d78091263841178ac9a772c7ac40f71105996c86de40d277cd1ee9ff7f40a7406949642ff940759fa14aa8784e403a751f9447b7243ff0000000000000403ab884ef70228340767fcccc928b3340a96ecf8a2e12b240d5adb9e8dd056a40fdaf468c8ef4744120fb4528ee6b174140acef3e82d363415ca804b51254b74175db8f727f42ff418dee095b6ea52941a28dd45321cc6641b4f926d703e06f41c5bc2c5584b02341d4bdf73600000041e24af31535552e41ede6b05db4749d41f6b220eb1d4e1e420006094ce5434242051118b842d5984209cd2ad7c2a018420d6fa5536d943b420f43c2d83adc46420ee0cdf295fe44420c4e121e5ed3bf4208047eb454adc94202cbaaf9ce648c41faff3cb6e5a4d541f1ac777ee01f4e41e4e63cd173cdc141d607a544e41d8741c44cca5507156741afb17c815d5a234193c6a2346a2dd9417118c6ff2ba677,
  0x4169d910bac20d384180b539be4e7674418d35ef8960488a4193e111b41879f0419644e5d2b5327241952058b2a5019b41913fe57addd536418877945260a14e417e48777494e1e341705f2476213535415edee4d9efa61f414942010f66fc484131ca663ccc0b364115517d06f10a4840f55afce991bc1640d16fc6e6dc52ea40a65635fe22220f407517851d525fce403a2744ce9674f43ff0000000000000403a751f9447b724407617b907289f2540a8cd95296e937740d5071ee04934cb40fcad9902b1d8b941205cb4fa550f0641400bc8c042ea37415b931644a7a09041750f777c57d368418cea3b059583c041a1ff3cb2c0ea3441b47431d9a386be41c557a17f1677c041d489a642f5149f41e24af31535552e41ee3fb32ec0000041f74496d5a78f0a4200ae0b0ba8edff42065016a2a8dd77420bde656a09fb97421040dd44c582d64211b33cc951dc294211fb784a28c9cd4211051d29f8d6ae420df4853fa179d7420870b01a5f612842026afdc7b2b00c41f982815a3a64fc41f01fcc4345892041e26e774d42abf941d2cd420a0a634a41c0c8b131514c0141a968edefa4391d418ec71986fc53784169d910bac20d38,
  0x4162c72fc03c31914176ff93b93533764182fcbe070cdba3418852bbc7e1155241898b60d1c8be9c41869e3658718fe8418125ff1a6d2d8c417673dac9d65f0d4169794e2aa6e2e441590a17eb94bfc041453f2507859bd2412ee77badd99cd441130bf8825eb5f540f39022832713cb40d054b5cd803cde40a555a82a09dcf040747f63e4b3df084039ce95f75281f53ff0000000000000403a2744ce9674f440759fa14aa8784e40a8132e55cf56c940d4457914715d2c40fb7f57f7983c5a411f4052139c682a413e90ebea812bf9415a3a87f3052d414174084ecbffbe71418b8a41f25f091e41a12fd9e38cbd9e41b39c9ec7b462ef41c493164598e1f441d3ef4d9b857a7441e1e78335783c1741ede6b05db4749d41f74496d5a78f0a4200e75c9a2000004206f5b0c424a84d420d2d865cc6701f42115a96603379394213526580750d234214207d11d0d72442139883d718b2d24211ce21f3b38629420e21c34da5f6bb4207ac812776c085420134095d7f168941f7017a7ca81d6541ec1d0fc2b5734941df198ab99c25df41cebbb07c65855441ba9a7d629e2f5241a38bb48ec978b04186ff93b93533764162c72fc03c3191,
  0x415a31e3950f2a80416e4cb9a6aeff2f41778b32b16af285417c466e417562ca417bb714cb8a234c4176c98538155d78416fe53a45f3dead416323f25152e2684153bde8b2f5bcf5414176f3092164bf412a586701828a0a4110c3e47553120640f1b68f88bcfa5940ce5273879dcbe540a43ff9add2c43c4073d73cdc6739a840396aa1b6b0ec773ff00000000000004039ce95f75281f5407517851d525fce40a7406949642ff940d36a6880b442ac40fa283aec20bab6411d915726eb015b413ccdb797ad533b4158a68c7cf272484172cd61b596256d4189d94e469f8c9441a02721e7a2bc1541b27b1e6ac4053e41c37758dc50662041d2f68e81df7cbe41e126070185af3d41ece0e98d94795041f6b220eb1d4e1e4200ae0b0ba8edff4206f5b0c424a84d420da045543000004211eda9bc21eba642145b5a21a26aa74215ae11148c46f14215a46c3d2e7d1642143a7178c9bdce4211ac4b02ec823e420cccec04c3cac54205d1d4f760dd6541fe9e443f17d0b741f3ca52292977ca41e7676e9b058f8c41d914ba8d58219241c808c40881ca9c41b4315b720aa7ba419cd2e2c4801bbb41807c923148a170415a31e3950f2a80,
  0x41518546426b1e16416312f2c64cba9b416bca1ba7f2c28c416f262ed23a16d5416c59f54abb1b8d416584672823e586415b9ba5152f6994414e1f6ec867c467413bf65cad0bc0624125fd075ee2fa24410d05f05e1d47c040efa9634f65c2a340cbe0656a0aace840a3168d8febacbb40731f0f09210cf64038fae0c15ad3893ff000000000000040396aa1b6b0ec7740747f63e4b3df0840a65635fe22220f40d277cd1ee9ff7f40f8ac86c7e25fb7411bb374a4877ff8413ad6f115e140fc4156e0b26e1acec341716757217a5e6c4187e4f916b72726419ddcf3cab3475641b11b32532bd91e41c210f2729b640e41d1ab8cb939403e41e010ddbe27642341eb3db4333fa63841f59688deca4192420006094ce5434242065016a2a8dd77420d2d865cc6701f4211eda9bc21eba64214b66c5078000042167ee4067fd9194216f5a4aae74840421600bba0311df34213c63ba719acfe4210a2f4e68680df420a24a56a4113a742031f9a2b098e5c41f9f0b7cb228d1341f039d0ea8eb1e641e296cb4d80016941d3513b4d70b02841c1f7782320929d41ad53d5e95c68034194599a1e742bcc4176a6804b7b1d9841518546426b1e16,
  0x414671bfeec5e3b44156e83b3472c741415f262ed23a16d5416035e5774d9c27415b3d387ccf107e4152f346f5107add41461aa505429b484135b4adbf3bbcc84121e9056bbd4b944108a58fd9c7a88c40ebe2745569d82e40c9598107d495fc40a1daf3a699540a407256d92647b82340387eb1990b697a3ff00000000000004038fae0c15ad3894073d73cdc6739a840a555a82a09dcf040d16fc6e6dc52ea40f71105996c86de4119ae72ff8c91024138b696e7208afd4154f3a08ea805b1416fbfca94c292d44185bcb7e3c64098419b218ae627a80441af151e5fad4da341c06f655f1cf21641d01e1cb6b52e7141dd6d373755112d41e91535d43d49e741f4039ea0bb489541fdf59979e9cef942051118b842d598420bde656a09fb9742115a966033793942145b5a21a26aa742167ee4067fd91942176a0b235000004216f0f071c29605421523c13636e0d142124b8061c004d2420daf316c5757f9420684e7b34b169941ffd8ce943a90aa41f4e721b39dd97b41e95524ada9580d41dc24860c3bcb2d41cc629448e480c341b9a569699fc13e41a4599a1e742bcc418b7a5e54e0f50e416dc7802a95363b414671bfeec5e3b4,
  0x413b7d13d889bbe7414a2f5febe6defc415088149b573e4f414fc41a539113b1414876f8cebe0b22413ef21a3a9072ff41303e3cd20e202b411c5b36f39dc0c24104791da255863840e8261537895b0240c6c4860cddb49b40a08eed20a13d8840717e998b426fc94037f552f57675643ff000000000000040387eb1990b697a40731f0f09210cf640a43ff9add2c43c40d054b5cd803cde40f55afce991bc1641178ac9a772c7ac41367771e96367154152eac947aaf887416c82f8da958d254183713c418a0500419833c8327b46d141abb0c3c3c315b341bd487e14b4a36541ccc168d523341241da51e9b6e6103641e6866ac3bfc46e41f21215bc9fc5af41fb3c5cfa77765742034fd7f06cda3f4209cd2ad7c2a018421040dd44c582d64213526580750d234215ae11148c46f14216f5a4aae748404216f0f071c2960542159cf696c0000042132da4c2bb0c3f42100135d6c77760420912abbc8ab472420263067932845341f92a016754d4d941f0001b5dd497a241e2cdb98e5333e941d44669eaec5bf941c3dd8bcc66714d41b1733266feeddd419af1c40b7432fd4181b65f38b8e7544162b41ff1a4e86b413b7d13d889bbe7,
  0x4130101b6f92082c413c6aa13a814a7841408f7271a4e308413d2b67329b356641346c3a59b528cd41273feb44e8d27c4115b1f7aba4cbe1410091e9a7dca85c40e4823d1a44b78d40c428b3fcdc6379409e68e45c6b88024070964e03dd900140375ddc4efa914a3ff00000000000004037f552f5767564407256d92647b82340a3168d8febacbb40ce5273879dcbe540f39022832713cb4115517d06f10a48413424d7809126384150d2169e4be43541692dd4141aa2a9418113c606f8cf8841952c46cb4360ad41a829041f2d8b7341b9841ae38f6b2d41c90e6659cc6aed41d6f6e5000113a841e3b4a75ca125bd41efbeadabee5f7b41f80d65370731f242012bf22eb9e1954207224db7b834a8420d6fa5536d943b4211b33cc951dc294214207d11d0d7244215a46c3d2e7d16421600bba0311df3421523c13636e0d142132da4c2bb0c3f421068f41d200000420a71ce3ec7294f420406039c500f7141fc6ba207274fba41f2d71bd9ae753741e73b9ef83131da41da8009c837d17e41cbc1e9af12729f41ba70f21ed2c30441a6993662898cc84190fce9eb4a64304175c31177cd30e8415667c40baadd2d4130101b6f92082c,
  0x4121df87cca8f23d412d2fcf59ca4cbe412f2efd5e744bdf4128f781ccc11256411f76e8f5ddd262410fd6feee61683b40f9ff429debceef40e104e3fa08c66940c18dca1a561aee409b9b724daee7ec406f3be727ca10a34036b733bfd8c6483ff000000000000040375ddc4efa914a40717e998b426fc940a1daf3a699540a40cbe0656a0aace840f1b68f88bcfa5941130bf8825eb5f54131ca663ccc0b36414d6b214b6e2b914165d5ef57ca7be5417d6ade59a0c2ef4192235943cf32c741a49d3c70aa1c7441b5b6944ec5f51341c54b310ebef69c41d384198307511e41e0c4d03b9cc89b41eb15eb43044d4a41f49acf96baf96241fd948223a4f20342040feccfe65ebd4209bdbb28e9c11f420f43c2d83adc464211fb784a28c9cd42139883d718b2d242143a7178c9bdce4213c63ba719acfe42124b8061c004d242100135d6c77760420a71ce3ec7294f420498ebc8c0000041fe2f98a03a025341f4c0b8ee27e19941eaae4b6a38ec3441dfef0e15e370ba41d1b126057d1edd41c20442541ecc9e41b0b2cc607ffd97419bcaca035a2cad41845b41d4c33cc541696cdbac4900c5414989d56e9103264121df87cca8f23d,
  0x4112e23c6644d7d3411c446b04ab920d411b74a16ad4e1524113c8aad6edbf154106298fef8d9de340f39f960ec7f48040db778e4db735df40bdf80e72c5cb204098ba7f636b6b44406d2b0c3020031540360000000000003ff00000000000004036b733bfd8c6484070964e03dd900140a08eed20a13d8840c9598107d495fc40efa9634f65c2a34110c3e475531206412ee77badd99cd4414942010f66fc4841629010fda9ae874178ccf214bf4b2f418e5fd6ae5b100441a12adbcd9324eb41b2029b2de21fb841c19d85f1a8ebbb41d01f936031f8fa41dbb51917075ea041e6681dc009363d41f1173b760a324341f8a259e00f22be4200cc5babcf8d914205b3838a735415420a94164a686ea0420ee0cdf295fe444211051d29f8d6ae4211ce21f3b386294211ac4b02ec823e4210a2f4e68680df420daf316c5757f9420912abbc8ab472420406039c500f7141fe2f98a03a025341f56d89efd0000041ec920d3fc0000041e1d35de00b26bb41d4b9c236e5a52441c653b174a226c941b61f439f0cd50841a3f6c6c3b25b7c419030062d710f3741771ed9b05d8d7e415c2c5558632bdd413b9ff438ed7d474112e23c6644d7d3,
  0x4102e23c6644d7d34109b28fd5b33ef4410676b29d39cfa040fcc6c9f2ce2d3640ec34e5bc85b1ac40d568469bc2dc2f40b8f852d24976ca4095cbad6abe652e406af9ff552f5dbf403536948017480f3ff00000000000004036000000000000406f3be727ca10a3409e68e45c6b880240c6c4860cddb49b40ebe2745569d82e410d05f05e1d47c0412a586701828a0a41453f2507859bd2415edee4d9efa61f41746b45e3d43ffb4188ccf214bf4b2f419bd7da1fd3795941ad0d73f96f2ac941bc4d3cfef59f8f41c9d5f7a6b37bdf41d62b6aa444b65741e1eda6d2aa6a6741eb62cf0727b41241f3ca0ef477988441fb18fc76770c9e4201992315841a674205b3838a73541542096c41d7de538d420c4e121e5ed3bf420df4853fa179d7420e21c34da5f6bb420cccec04c3cac5420a24a56a4113a7420684e7b34b1699420263067932845341fc6ba207274fba41f4c0b8ee27e19941ec920d3fc0000041e27c9f2940000041d668cdc932971741c954d0edc3581041ba8d0a612f881241a99d76b829ce3f41968601114c81784181ce6d31fc5d894168cfefdc7d5fa6414d83c71fa4d89f412c446b04ab920d4102e23c6644d7d3,
  0x40f1cdc2e7c6cefb40f5ce1847431bc840f0f172a587f19840e2fdd52567d1f740cfe983494f609c40b42eda84be878c4092d5646fbd87f84068a8af331aca48403458d455549c1a3ff0000000000000403536948017480f406d2b0c30200315409b9b724daee7ec40c428b3fcdc637940e8261537895b024108a58fd9c7a88c4125fd075ee2fa24414176f3092164bf41590a17eb94bfc041705f24762135354183b053d932d2344195ebba6707ff7141a6b78f835ebd9541b602b8b90a84e941c4032838478e8741d1207b7c5325bd41dba9fc7aebe01941e520f4d2f64b0a41ee93755f707e6c41f4fd5dcbd7b6b041fb5f6a0be38f194200f80485db1411420403ec77959ede4206788a7ef84e714208047eb454adc9420870b01a5f61284207ac812776c0854205d1d4f760dd6542031f9a2b098e5c41ffd8ce943a90aa41f92a016754d4d941f2d71bd9ae753741eaae4b6a38ec3441e1d35de00b26bb41d668cdc932971741ca68e35f80000041bd0be080780f3d41ada4ca283a67de419bdd948347d79e4187e3c55e87956941726d041dc424f84159106cdf3928f5413d1efd0c81a73d411b419e5913e2ba40f1cdc2e7c6cefb,
  0x40df80101ffbdf6f40e125851885618e40d750debd633cfe40c666b472ab3ac040af5e316a0285c1408fbdfbe78d505e406637010ecf504b40336406304453053ff0000000000000403458d455549c1a406af9ff552f5dbf4098ba7f636b6b4440c18dca1a561aee40e4823d1a44b78d4104791da25586384121e9056bbd4b94413bf65cad0bc0624153bde8b2f5bcf54169794e2aa6e2e4417e48777494e1e34190b12544014f9a41a1279b551cc15441b0820a8ac7e3af41bddb4ee72c0f1b41c9730d381e7eeb41d47fb4fc869f7741df45650576c52241e6a06b86641dda41ef1b42ce316ddd41f45647182ca24041f950e6403ef9b241fe05e2b3606e4e4200f80485db1411420249e03191465a4202cbaaf9ce648c42026afdc7b2b00c420134095d7f168941fe9e443f17d0b741f9f0b7cb228d1341f4e721b39dd97b41f0001b5dd497a241e73b9ef83131da41dfef0e15e370ba41d4b9c236e5a52441c954d0edc3581041bd0be080780f3d41af1b099e000000419eee696238a7b9418c59581ac683684177b61f99cec04e4161da564b1b71d04147b852a4900647412aeed826c4a22b4108a5ef533fbc3c40df80101ffbdf6f,
  0x40c9fdf4eb72363640c8c26bf65b202040bcdbb40b4090f140a71ae57dab1cca4089e20265399c614063a4c99b6c69874032548eb9151e853ff000000000000040336406304453054068a8af331aca484095cbad6abe652e40bdf80e72c5cb2040e104e3fa08c669410091e9a7dca85c411c5b36f39dc0c24135b4adbf3bbcc8414e1f6ec867c467416323f25152e268417673dac9d65f0d418877945260a14e4198e5cc257a309e41a7c299de49a0a241b55710b489f0bb41c21789f5fc13d841cd074457b295af41d61528043d0c0841dfea04dcd3317141e5eff5a66da11341ecb9046057ac7f41f1eccb4aba7eae41f557e1f917487141f841c911c6fe9041fa52b0b2746f4f41fb4774f4db359941faff3cb6e5a4d541f982815a3a64fc41f7017a7ca81d6541f3ca52292977ca41f039d0ea8eb1e641e95524ada9580d41e2cdb98e5333e941da8009c837d17e41d1b126057d1edd41c653b174a226c941ba8d0a612f881241ada4ca283a67de419eee696238a7b9418dfd2f58000000417ad0a3e50d6ec44165e4f48c2c6937415019f5920d1c804134e81f835ac2b14117360b49cfee7b40f4c7bf2ec3566440c9fdf4eb723636,
  0x40b3da0b1b7df34f40b0357896c6221a409f7ca52799277c40842af1e4b5b2f84060f1bdc8f75f1f4031257c5187fd083ff00000000000004032548eb9151e85406637010ecf504b4092d5646fbd87f840b8f852d24976ca40db778e4db735df40f9ff429debceef4115b1f7aba4cbe141303e3cd20e202b41461aa505429b48415b9ba5152f6994416fe53a45f3dead418125ff1a6d2d8c41913fe57addd53641a04ca140cb615741ad090faebca64a41b872ba3e5e216d41c381f8a125233941cd8fa1c18c9f7841d54de5f4433cd341dd3ff2333cd6c441e32602eae51daa41e7ee805877987241ec92427537913841f04d1bfe4a7f8641f1c91702988bc041f28edae6a4414a41f28511d021603941f1ac777ee01f4e41f01fcc4345892041ec1d0fc2b5734941e7676e9b058f8c41e296cb4d80016941dc24860c3bcb2d41d44669eaec5bf941cbc1e9af12729f41c20442541ecc9e41b61f439f0cd50841a99d76b829ce3f419bdd948347d79e418c59581ac68368417ad0a3e50d6ec4416767f3000000004152aaa110fa5d55413ad4cbe61ab63f41210844afc0a68b41027fa1074393ff40e0357896c6221a40b3da0b1b7df34f,
  0x409bc96102783a764092e80a94166dd2407d61b3b2043f59405c3a9e12409338402f9f6e4990f2273ff00000000000004031257c5187fd084063a4c99b6c6987408fbdfbe78d505e40b42eda84be878c40d568469bc2dc2f40f39f960ec7f480410fd6feee61683b41273feb44e8d27c413ef21a3a9072ff4152f346f5107add416584672823e5864176c98538155d7841869e3658718fe841952058b2a5019b41a2a1b698312f8c41af1da7381ab62d41b8a8a2f738af1b41c2952760c2755641caad5c6140d4fa41d243be660e4c6241d7e1e1e3ee1a1441ddd916f512119a41e1d749a22d513441e4698f38e2f3b841e65c504725340941e775534635a72a41e79216abcd633241e6ae99c48fde0541e4e63cd173cdc141e26e774d42abf941df198ab99c25df41d914ba8d58219241d3513b4d70b02841cc629448e480c341c3dd8bcc66714d41ba70f21ed2c30441b0b2cc607ffd9741a3f6c6c3b25b7c41968601114c81784187e3c55e8795694177b61f99cec04e4165e4f48c2c69374152aaa110fa5d55413d18c400000000412472757ba9463941096522009eb13d40eafe904b8d809a40c7290cf5684687409bc96102783a76,
  0x408192e55760f0d3407321c7074cae5b40564c9205aabb23402c90d29d2d43cd3ff0000000000000402f9f6e4990f2274060f1bdc8f75f1f4089e20265399c6140af5e316a0285c140cfe983494f609c40ec34e5bc85b1ac4106298fef8d9de3411f76e8f5ddd26241346c3a59b528cd414876f8cebe0b22415b3d387ccf107e416c59f54abb1b8d417bb714cb8a234c41898b60d1c8be9c419644e5d2b5327241a2697c9d6cd2dc41acf0b53ec3cf7841b5a91604fc576941beed99c4c4f62241c51715752fec6741cb80f3cee29a4f41d12a0b44c81d5841d484e13c1113c241d781ee0ab906cc41d9d1de33e16aeb41db3241de32ebca41db79854f6e35b741da9ecef1a7830c41d8bbc0c0de865341d607a544e41d8741d2cd420a0a634a41cebbb07c65855441c808c40881ca9c41c1f7782320929d41b9a569699fc13e41b1733266feeddd41a6993662898cc8419bcaca035a2cad419030062d710f374181ce6d31fc5d8941726d041dc424f84161da564b1b71d0415019f5920d1c80413ad4cbe61ab63f412472757ba94639410c1ce00000000040f1161ffa43b32e40d1c8bbca2fa99440ade4c6fb67d06f408192e55760f0d3,
  0x4063afc57c00cf8c405012f4c551be2a4028fae0c15ad3893ff0000000000000402c90d29d2d43cd405c3a9e1240933840842af1e4b5b2f840a71ae57dab1cca40c666b472ab3ac040e2fdd52567d1f740fcc6c9f2ce2d364113c8aad6edbf154128f781ccc11256413d2b67329b3566414fc41a539113b1416035e5774d9c27416f262ed23a16d5417c466e417562ca418852bbc7e115524193e111b41879f0419ef03df3369a7541a6f6c0392ba6c841b048675721a56d41b6164c3f704f4241bcb039159a2dad41c1db21eb466bcb41c55159150721e141c86c2d73e5bfa141cadc4229dae82141cc5e236917808341ccc5fe90dc273c41cc07a05d84562141ca38c10400fd1a41c78d08e403f61c41c44cca5507156741c0c8b131514c0141ba9a7d629e2f5241b4315b720aa7ba41ad53d5e95c680341a4599a1e742bcc419af1c40b7432fd4190fce9eb4a643041845b41d4c33cc541771ed9b05d8d7e4168cfefdc7d5fa64159106cdf3928f54147b852a49006474134e81f835ac2b141210844afc0a68b41096522009eb13d40f1161ffa43b32e40d456400000000040b4bc3f907fe4974091142411a6da0d4063afc57c00cf8c,
  0x4042ea0e46671a934024975cd57680873ff00000000000004028fae0c15ad38940564c9205aabb23407d61b3b2043f59409f7ca52799277c40bcdbb40b4090f140d750debd633cfe40f0f172a587f198410676b29d39cfa0411b74a16ad4e152412f2efd5e744bdf41408f7271a4e308415088149b573e4f415f262ed23a16d5416bca1ba7f2c28c41778b32b16af2854182fcbe070cdba3418d35ef8960488a419577c422b150ad419e3102046fbbb241a45655a30d2bd641aa45eb750a4b7841b04983ac6bd40a41b364a55275c98b41b6303017f5c9c241b8672c7e822b3241b9ce7ed42ffcc741ba3ed21524868341b9ab846602fd8041b824ef253b8c2f41b5d57c13e63e9341b2fa3bc8463b7741afb17c815d5a2341a968edefa4391d41a38bb48ec978b0419cd2e2c4801bbb4194599a1e742bcc418b7a5e54e0f50e4181b65f38b8e7544175c31177cd30e841696cdbac4900c5415c2c5558632bdd414d83c71fa4d89f413d1efd0c81a73d412aeed826c4a22b4117360b49cfee7b41027fa1074393ff40eafe904b8d809a40d1c8bbca2fa99440b4bc3f907fe4974094b800000000004070bafb6d70486e4042ea0e46671a93,
  0x401d64d51e0db1c53ff00000000000004024975cd5768087405012f4c551be2a407321c7074cae5b4092e80a94166dd240b0357896c6221a40c8c26bf65b202040e125851885618e40f5ce1847431bc84109b28fd5b33ef4411c446b04ab920d412d2fcf59ca4cbe413c6aa13a814a78414a2f5febe6defc4156e83b3472c741416312f2c64cba9b416e4cb9a6aeff2f4176ff93b93533764180b539be4e76744187440a1f8bf9b4418f15802a8a878c4193f0ffde4be8354198973c17fd9b6d419d29b350f83d3c41a0a383587fb06541a2467d33cca0f041a353957b9cbf7b41a3ae5f72dc5e8c41a34d090042330441a23a10129b264541a09270d883f3e0419d01742c1151c241986c526a916a804193c6a2346a2dd9418ec71986fc53784186ff93b935337641807c923148a1704176a6804b7b1d98416dc7802a95363b4162b41ff1a4e86b415667c40baadd2d414989d56e910326413b9ff438ed7d47412c446b04ab920d411b419e5913e2ba4108a5ef533fbc3c40f4c7bf2ec3566440e0357896c6221a40c7290cf568468740ade4c6fb67d06f4091142411a6da0d4070bafb6d70486e404a800000000000401d64d51e0db1c5,
  0x3ff0000000000000401d64d51e0db1c54042ea0e46671a934063afc57c00cf8c408192e55760f0d3409bc96102783a7640b3da0b1b7df34f40c9fdf4eb72363640df80101ffbdf6f40f1cdc2e7c6cefb4102e23c6644d7d34112e23c6644d7d34121df87cca8f23d4130101b6f92082c413b7d13d889bbe7414671bfeec5e3b441518546426b1e16415a31e3950f2a804162c72fc03c31914169d910bac20d38417118c6ff2ba6774175c117210cfd51417aa4b6ffe4742e417f6d46bc3931534181dbca072218d641839024e4b1dea94184a9308f746e5441850a3f4457aa384184a9308f746e5441839024e4b1dea94181dbca072218d6417f6d46bc393153417aa4b6ffe4742e4175c117210cfd51417118c6ff2ba6774169d910bac20d384162c72fc03c3191415a31e3950f2a8041518546426b1e16414671bfeec5e3b4413b7d13d889bbe74130101b6f92082c4121df87cca8f23d4112e23c6644d7d34102e23c6644d7d340f1cdc2e7c6cefb40df80101ffbdf6f40c9fdf4eb72363640b3da0b1b7df34f409bc96102783a76408192e55760f0d34063afc57c00cf8c4042ea0e46671a93401d64d51e0db1c53ff0000000000000]

/-- The coefficients for `2 ell = 55`: one number for each of the 56 values of `mp`, consisting of the doubles for the 56 values of `m`. -/
def wigner55 : List Nat := [
  0x3ff0000000000000401daa2fefaae1d740434491be50521a40643f1c6cc855e440823ffe3f1f7a37409d2493249245ea40b50834c0fa519c40cbd2a29821d81440e109b496c3d1da40f377b96c71b1bf4104e072ec1e1ab741151cd70fd84fa0412436bd8b92c475413261aa91678ed2413fd673fd36ea2c414a517d20abba9d4154ce73db332489415f83a0f78e18cc4166e4ff15c27199416ff2e9635fc24941756e94abacd7a2417bab2531510c09418132c0a3c2ab14418499b91de0bfda4187c992279b8afb418a7d0f26e3e781418c7406a9262670418d7cfc59cce1d1418d7cfc59cce1d1418c7406a9262670418a7d0f26e3e7814187c992279b8afb418499b91de0bfda418132c0a3c2ab14417bab2531510c0941756e94abacd7a2416ff2e9635fc2494166e4ff15c27199415f83a0f78e18cc4154ce73db332489414a517d20abba9d413fd673fd36ea2c413261aa91678ed2412436bd8b92c47541151cd70fd84fa04104e072ec1e1ab740f377b96c71b1bf40e109b496c3d1da40cbd2a29821d81440b50834c0fa519c409d2493249245ea40823ffe3f1f7a3740643f1c6cc855e440434491be50521a401daa2fefaae1d73ff0000000000000,
  0x401daa2fefaae1d7404b00000000000040713656564ed79d4091bec9dfc8818240af6022bda14ac840c88f65ea91f55e40e15ec9b80e34e540f6827edc922147410afe8dc6d5c0fb411e300f73fc0b75412fab4297c47770413f50ac622d2813414d4cf09fc22d55415a066004ec4d7141660069034136194171be69fc78d35b417b5aa1eb012d8341842f3c084a9259418c8e3e575f2651419362cc8c1189ea4199495749de78c6419fb6464448393a41a321c0c230476b41a638de934af71d41a8dba944c5edd041aac9af0ab3254141abd0ca1f79fd2941abd555d06e4e1341aad6dbe46a5d9241a8f027f8e8f4a041a652bc88ea9f0c41a33eb498572bb9419ff1bff3bbc33a4199825658405f3a4193963a7577e71c418ce61a9d908a074184768293d99fcc417bc8ab5bede01741720f50a91a4d0d416671bfeec5e3b4415a9d9efab53d09414e0d0c4f5f502341401c53d24923c041305a92357254d6411f50ac622d2813410c267415206a2a40f7a00c17fce79340e2610ed3a1dffd40ca42e956aa7c2840b10409854762d64093a5eb220e5de54073afc57c00cf8c40506157e242edb34024c8dc2e42397f3ff0000000000000401daa2fefaae1d7,
  0x40434491be50521a40713656564ed79d409588000000000040b5c5686e5ead4240d2de94309bd1d940ecf35032c2582941040eb55d6eaa8441197355268a7fbf412ddf22d338cc30414056ef749adc2e4150c2ab07773e5f4160324cf15fa47b416d9aac05a9425a4179ab252e76bf1e41852bca0c21c1074190a5aa9a7db3834199015f37bfdfd541a1f742bc7c3cf341a8badb49ecf22841b052860c8e95ed41b4aea103e1c8d741b92cbef5e4ff8b41bd74957f9105f341c09270d883f3e041c1f093aee884d441c2b0230038786641c2bc63576a59b541c2140a7d85e08a41c0c977748e99a541bdfef24697596441b9c6cf2c71334f41b54bd54d27d77c41b0e7f9507e5adb41a9c602cf9ee53541a2d8f1882d7ef9419a6ae32dd51a5a4191b8aecbce01dc4186b98b3d033f63417bce0f28ced7f5417032a34018cb084161ed7ca65ffc664152cbb71fffff0a41429a5cf42ed01541314f620869c5d7411e220c2c3adea9410860f8c50a894540f22fc9f7c4da5b40d8c26bf65b202040be52f312afe9e940a05f99470bf8e9407e4010ecf0afb64056bb6d412f5e6340293813088978c43ff00000000000004024c8dc2e42397f40434491be50521a,
  0x40643f1c6cc855e44091bec9dfc8818240b5c5686e5ead4240d595000000000040f254d9af5b269c410b8d1082a6028d4122b0b446b0b59e4137360b49cfee7b414aa6a5209f8c63415c8206159a4a6a416c93d9b54a3714417af94892ad828241881088e62a0acd41945b41d4c33cc541a05eb7d864c20041a915787239432041b257df2ed69fb641b9a569699fc13e41c1291bdf91a53741c6016f23ff825041cb10353ae3aa1d41cff1a025f305f941d21a8e4d0349fe41d3b6b62c14859741d4a11e38e6c71441d4bfb1b07d6d9e41d40f1b74f9503f41d2a35b993f1a1e41d0a42411f8575141cc8bc2bf681f3f41c7822cf2d740ee41c293f187222e5b41bc27d8009ba88141b470902566cf6a41ac66371ae4b84e41a2dafc9a758c3b4197e44cc7ff778a418cd5c7a521cd10418089bdb97db7ba4171fbe58a46a42541627b9c1e4523fc4151e3204c9b0d6d41403a7ac51718b8412b74a16ad4e152411581dfb670d4ec40feef0f61317c0740e43131703cb70940c79008d3db093b40a80c6b5eb5ce1e4084c6a57d607f2f405cc9bb91eb1cc9402cd82b446159f33ff000000000000040293813088978c440506157e242edb340643f1c6cc855e4,
  0x40823ffe3f1f7a3740af6022bda14ac840d2de94309bd1d940f254d9af5b269c410e8160000000004126723e6ee7467b413dce783391237441521b1316d46228416453b7eecc745641753fca08c105a04184ce42d4d78f4b41932ba6c54de92141a0af8ff300d89c41ab860baafaeffe41b590e80b4710a741c0168d51a82db341c6e4cd6242b14641cf1e83b5b20aee41d43a52f25919c341d92d09c9f9f20141de062816b279e441e12a605e0843bb41e2d43abe05f7a041e3d1ef218e207341e40683e0185bda41e36c0bd4fb00e241e214b91ed9beca41e0276d3ea79b3441dbb14d8ffac0ec41d6c312cd94b5e541d1ee23ad805c8c41cb0d12813d35bd41c385bd8d1e379841baed72498f6a6341b1b8e378715eca41a639c095c9efd7419a816cf020a295418dfd83dfe5f4c641800dccbf53b777417035e5774d9c27415ec1dfed518c2d414b491db2a5c2634136813a013f5aad412122216dafc2a54107dc37f8d3f95b40ee073b78d3867740d0cd0756006c1040b05676a0a8b144408aadef221667a5406149619f772bb0402feffbfdfebf1f3ff0000000000000402cd82b446159f34056bb6d412f5e634073afc57c00cf8c40823ffe3f1f7a37,
  0x409d2493249245ea40c88f65ea91f55e40ecf35032c25829410b8d1082a6028d4126723e6ee7467b41402a34000000004154ffaefd073dae4168f1b63a4807c8417b5e31af378385418bf1b586375762419ab5a3cafa8c4e41a80294c2d6811341b4602a127e586d41c05fc8def4353641c8fc0d74d700bb41d222727a8ba58d41d916cf2f7cfeda41e090804bc6307d41e4e69b75c9714f41e939a9c7a7965041ed248cc2c34d1a41f01fcc4345892041f118e3d24d430241f160639c4dab3b41f0edf860132c6141ef9f66e371aa3941ec4e8c11d4ab4541e8474a8db0fb1e41e3f16af463a9b441df5bebbdffeaff41d7945bf5b906e341d0f0a602ec2c4741c73a7138f312ac41be5a5188b6b99841b2dde2fe62a13341a644e5d2b532724198e5cc257a309e418a4afc2d04f5b2417a2381bdda6d4a41685d09c4fee73741552fe48cbed41d4141163fd36b58eb41295e13787cd31341112ab8f09281ab40f4eb292d04a67940d690b7ca048e2340b50ad136c791c940905ea80185029b40640c7c1a6f19614031520cd1372fea3ff0000000000000402feffbfdfebf1f405cc9bb91eb1cc9407e4010ecf0afb64093a5eb220e5de5409d2493249245ea,
  0x40b50834c0fa519c40e15ec9b80e34e541040eb55d6eaa844122b0b446b0b59e413dce78339123744154ffaefd073dae416aac0900000000417ef69a8f67672641909747895f767941a0897364f3cca741aed76d270685a441bb0806243d381e41c659f3cfb7186541d17d3c9e96808341d9f6f909c5128d41e2528e85bee02841e89ff54ab451c741ef8f3d635bd87841f34eade4cf172641f692eac4948cc641f93d0693da8d3641faff3cb6e5a4d541fba39894a8188741fb165a3351e09b41f969c4e164ca6d41f6d25a6401e5bc41f39c8e1d585ab241f01ea8fa66a73241e954c064ea747441e302ab1b76fea941db3a2feee692e141d2952760c2755641c823b95dc3bf1941bdca88451bb2c941b16da880a2553c41a3491f4d44717b41941fe10f58236a4183bbfa12c0cccf41721c030c336c2e415ef21a3a9072ff414876f8cebe0b224131c1da6df0fa2741176ef87267556040fbc06c7685fa6140dcfc541a92896740ba0e6119c6a60d40937020ecf566424066aebe60e150174032852fb49899cc3ff00000000000004031520cd1372fea406149619f772bb04084c6a57d607f2f40a05f99470bf8e940b10409854762d640b50834c0fa519c,
  0x40cbd2a29821d81440f6827edc92214741197355268a7fbf4137360b49cfee7b41521b1316d462284168f1b63a4807c8417ef69a8f67672641918df64000000041a25d4be36ae26441b1dbb2752eb2a741c03c8d21558f5b41cbbb46fe04af3f41d653b174a226c941e0ff7713d0a1f041e888cc86eae63c41f0d186c095cd6941f5f04c7fad9c4641fb43ce9f03bf88420028a23bdbc4b44202487b9dbbb6744203c281f4bd8c26420468677b61ea634204259fec902bac42030375342785dd420126fb3c149d1641fd92fa5bdcaa1d41f85af18407b14e41f32602eae51daa41ecb9046057ac7f41e487820365a03e41dbeebd6ea155f441d20f84d820ff6041c628741a4c58a141b9bcb460cb691e41ac3b34fc96e182419d283a2e7fbbc6418c408ef8d7fe0f417992bf232ea542416583108349f79e4150b588838920954137c7095a792d33411eae7f011fd7e14101b6cba2377bcc40e1fb3bde76ad1340bf4d339c8a0511409682aa823b26fd40693074e115a9934033988e1409212e3ff00000000000004032852fb49899cc40640c7c1a6f1961408aadef221667a540a80c6b5eb5ce1e40be52f312afe9e940ca42e956aa7c2840cbd2a29821d814,
  0x40e109b496c3d1da410afe8dc6d5c0fb412ddf22d338cc30414aa6a5209f8c63416453b7eecc7456417b5e31af37838541909747895f767941a25d4be36ae26441b2be3d9700000041c1c551d0ecd09041cf7c4c6de7f4d141da2e3e8daec21a41e482330e4ca29d41ee5c17977c2d5e41f548c43b86422141fc529c507df5f34201e9b05451f2df420590e52f07ebf14208bce6b373d5bc420b0ea5984f113d420c3bf1e0e98a0a420c1e61eff494b3420abb2c19f51b26420841c911c6fe90420501d4f983772042015b14aeb5853941fb57dd1d67e96041f4853fc87c6c1a41ed50a442fae39341e3e7afad6fef8741d9a85fc3949c3541cf560f8a9c911741c21789f5fc13d841b3b36d25b2d34c41a42b5db669d591419357cb5676b75941814d04fb0919de416cb5eb79fc539d4155f49fc9c2c816413eb25493aaa84741236a0b65add8824105eb85e7b8957a40e5b1f7aba4cbe140c25a27e84a4f4c40998ec0705f9f90406b91cbb254e15e403491248a282eec3ff00000000000004033988e1409212e4066aebe60e1501740905ea80185029b40b05676a0a8b14440c79008d3db093b40d8c26bf65b202040e2610ed3a1dffd40e109b496c3d1da,
  0x40f377b96c71b1bf411e300f73fc0b75414056ef749adc2e415c8206159a4a6a41753fca08c105a0418bf1b58637576241a0897364f3cca741b1dbb2752eb2a741c1c551d0ecd09041d06ab6da80000041dc523eadf4f52a41e6e9bca4d7037441f17348f9c7dca341f9182a35e41af042011350459dfa8942060896889032c1420affe0dd568e3f420f750daaaa49e9421170c8e7a735c742126afdc7b2b00c4212885e56628ff54211c5f72380a9da42103f148caade1b420c4e528810dcfa42077e0527a6808e420290a8d9c7c82d41fbeb3ed56e265641f3f46f2d6c4bfa41eb14e006c9d4d441e16bb1816441f541d53535aec4146e41c860bc2a8fed5f41ba63cb38e3dd3641aad22763a76a1041997f5671df599d41869258f2bc2d064172819e55776d99415beb4e7ee10d124143371d20dcec874127e15c8fa70f70410a6e40586a504b40e99432b7b5f26a40c518dcdf09dbb4409c8dd4394d758f406dd2de0d004ae5403572969b8b5cd83ff0000000000000403491248a282eec40693074e115a99340937020ecf5664240b50ad136c791c940d0cd0756006c1040e43131703cb70940f22fc9f7c4da5b40f7a00c17fce79340f377b96c71b1bf,
  0x4104e072ec1e1ab7412fab4297c477704150c2ab07773e5f416c93d9b54a37144184ce42d4d78f4b419ab5a3cafa8c4e41aed76d270685a441c03c8d21558f5b41cf7c4c6de7f4d141dc523eadf4f52a41e7c4cca2c0000041f2b2197076408f41fba9ccd73a9c8342034e3740b88ead42097a08911ca8bb420fd8ce943a90aa4212e20515ea1f89421544653dfcb9024216c4ce7cc5468742172f9d853a244b42167763efb91b614214b794abf92c8842122e08ea09d340420e5ad0a6754e67420818e9b7f6be3442022d78c7d1c93c41fa08d73ae47c2341f1ad75228aac4741e6ba7207d6dd8041db9dc3f0488a6741cfa46c31f4e72b41c10ca2f5c9ead541b139ddfe8d9c1e41a041c4db3b3a03418c8820e6b6773e4177272ba373bc97416141da1e2e930341476e68738cf0eb412cab5b0916c993410f2d08e0a8192740ed93796bbc63dc40c7da39ea176f58409f7a20fa05fb35406ff3bda6d9c95040363fa3f3c029613ff0000000000000403572969b8b5cd8406b91cbb254e15e409682aa823b26fd40ba0e6119c6a60d40d690b7ca048e2340ee073b78d3867740feef0f61317c07410860f8c50a8945410c267415206a2a4104e072ec1e1ab7,
  0x41151cd70fd84fa0413f50ac622d28134160324cf15fa47b417af94892ad828241932ba6c54de92141a80294c2d6811341bb0806243d381e41cbbb46fe04af3f41da2e3e8daec21a41e6e9bca4d7037441f2b2197076408f41fc920d3fc0000042048400e97aa3a0420bc45ac9291f6f4211bfb9d266b9424215789f0f154e1842189ceb037b5ff7421ac3ce7dbd4a86421ba19ae6c8a7a9421b1870128545e442193ea4f320a53942165913d4533d284212cb3752eb9a0b420e03fcd11b24064206beb65e88d08d42005728f9dae70f41f63baf188ca7a441ec9a8d05f52b0d41e15dd59f0bb59141d3dc3279f9a62441c5554dc7ab17dd41b574ec4fb921a641a4216db340ec1941918961ec0665f4417c3683fd55c6fe4164d02148a07f47414bec6fc14ae0094130d9bbf7acca5741120a5023483aed40f0d0a66577ae2c40ca963fce59fcb740a1274576ad1e994070fa3b41afe8ac4036fa6ea162d0f03ff000000000000040363fa3f3c02961406dd2de0d004ae540998ec0705f9f9040bf4d339c8a051140dcfc541a92896740f4eb292d04a6794107dc37f8d3f95b411581dfb670d4ec411e220c2c3adea9411f50ac622d281341151cd70fd84fa0,
  0x412436bd8b92c475414d4cf09fc22d55416d9aac05a9425a41881088e62a0acd41a0af8ff300d89c41b4602a127e586d41c659f3cfb7186541d653b174a226c941e482330e4ca29d41f17348f9c7dca341fba9ccd73a9c8342048400e97aa3a0420c920d3fc000004212baf27761f58b42172c35678e22c1421b19151a132daa421dfdf17a9f6f23421f7309d6193dee421f43d15e8fb8e7421d7abe20b7cd69421a5e03096bad0a42165e7e19e7f5954211fe63836b3ea7420b6e7492270c164203cc0546d4ecbf41fb05d981851dd341f16a93d81dcf5a41e529716e4196c841d82f5d104af57741c9edd6a488dc2641b9fed63755469041a84744c5e65ddb419506949e1dd0a74180ca41aaa3146d41688e649615e70d41504dc9a868442341337188456274774114887925373a5c40f2d7abafa943de40cd456f0d03951940a283437ef3bee44071ea88886804b64037a4a77fcc0e4b3ff00000000000004036fa6ea162d0f0406ff3bda6d9c950409c8dd4394d758f40c25a27e84a4f4c40e1fb3bde76ad1340fbc06c7685fa6141112ab8f09281ab412122216dafc2a5412b74a16ad4e15241314f620869c5d741305a92357254d6412436bd8b92c475,
  0x413261aa91678ed2415a066004ec4d714179ab252e76bf1e41945b41d4c33cc541ab860baafaeffe41c05fc8def4353641d17d3c9e96808341e0ff7713d0a1f041ee5c17977c2d5e41f9182a35e41af042034e3740b88ead420bc45ac9291f6f4212baf27761f58b4217c423c0400000421c6c43d8830d9a42200bb3d9c4252a42212005bb9b3a1042214acb5af9ec66422087915c753840421deca30e7e1ff64219a6630bad8c274214d0819985aecf420ff6d69ce066c24207345d4204f95841ffd177eb87ec4e41f492b0863836af41e90ba49d79e2e741dca4450c220f1c41ceb000d6247de841beb504ad75124641ac9635b1ac99254198a511894a43534183907eec852dd3416c67e00d3433794152b1f31aae81184136110983a0f4f7411706c2dcee49aa40f4d7cd975db85e40cfe0c7fd8c9bed40a3cf04036e67664072cac9b252fca240383fab8b4d43153ff00000000000004037a4a77fcc0e4b4070fa3b41afe8ac409f7a20fa05fb3540c518dcdf09dbb440e5b1f7aba4cbe14101b6cba2377bcc41176ef87267556041295e13787cd3134136813a013f5aad41403a7ac51718b841429a5cf42ed01541401c53d24923c0413261aa91678ed2,
  0x413fd673fd36ea2c416600690341361941852bca0c21c10741a05eb7d864c20041b590e80b4710a741c8fc0d74d700bb41d9f6f909c5128d41e888cc86eae63c41f548c43b86422142011350459dfa8942097a08911ca8bb4211bfb9d266b94242172c35678e22c1421c6c43d8830d9a422068f41d2000004221ddc47d6839e942225ca51b2a20a34221d3f2b41026c042205c2a7d487c7c421c6225172aa88f421745737afd9dba4212069f2cb127fa420a5d175fbe712542022e8dab29195141f79e71357beb8341ecd89df0b9a35341e0869654d8143841d1b7aa64d8693241c1b7aa64d8693241b07660ca385ac3419c4b2631c0def841865bfec52a7d83417022f00db3ac15415515f7a8e420a44138abd0c823e13741197af23dcc2b8d40f6ca4ced53828d40d130e56e61c8c540a508b8183d8e0240739b00fe9f6b8a4038cc97f2912db53ff000000000000040383fab8b4d43154071ea88886804b640a1274576ad1e9940c7da39ea176f5840e99432b7b5f26a4105eb85e7b8957a411eae7f011fd7e14131c1da6df0fa274141163fd36b58eb414b491db2a5c2634151e3204c9b0d6d4152cbb71fffff0a414e0d0c4f5f5023413fd673fd36ea2c,
  0x414a517d20abba9d4171be69fc78d35b4190a5aa9a7db38341a915787239432041c0168d51a82db341d222727a8ba58d41e2528e85bee02841f0d186c095cd6941fc529c507df5f342060896889032c1420fd8ce943a90aa4215789f0f154e18421b19151a132daa42200bb3d9c4252a4221ddc47d6839e94222bb3c1c400000422282b51cb8f889422140de186a2935421e589fffd3386d42192dfbb9c454e74213b4c7a7517c6b420d132e2e165b11420432d7cadc90e041fa64d4594b965f41f030df978cc18f41e29c6c87105fc441d3fdcff0eeff0141c401144d71421f41b29349b5a0068a419fdd204625a236418919954f2aae4641720846785368fa41576cb7ad33b9de413b35588386ce31411bdafdcb8ce3f340f8a8bbe1f2f16440d2613beaf14e3840a62ec2ab6ad94c40745b301e6ed82140394c583ada5b523ff00000000000004038cc97f2912db54072cac9b252fca240a283437ef3bee440ca963fce59fcb740ed93796bbc63dc410a6e40586a504b41236a0b65add8824137c7095a792d33414876f8cebe0b2241552fe48cbed41d415ec1dfed518c2d41627b9c1e4523fc4161ed7ca65ffc66415a9d9efab53d09414a517d20abba9d,
  0x4154ce73db332489417b5aa1eb012d834199015f37bfdfd541b257df2ed69fb641c6e4cd6242b14641d916cf2f7cfeda41e89ff54ab451c741f5f04c7fad9c464201e9b05451f2df420affe0dd568e3f4212e20515ea1f8942189ceb037b5ff7421dfdf17a9f6f2342212005bb9b3a1042225ca51b2a20a3422282b51cb8f88942218f885a7c0000421f5f3ba122dfe0421a63cd11bb222c4214e6cc0f877cb1420f287f549071104205d6221b4eb9b541fcbe3d0e538adb41f1bc7b382073d141e47ae56f5fbde841d611e9697fcce241c620615460823941b48f23a76c4ee841a19f4321ca8cc7418bb5a6ddf7ab5a4173d7de9cf99bc44159a9132b20323b413da15075c2d46d411e1d399ccda30640fa6d0d6be4863640d37ea7841d335840a73fb3de7b193840750b585d2da9f44039bfb076d236ea3ff000000000000040394c583ada5b5240739b00fe9f6b8a40a3cf04036e676640cd456f0d03951940f0d0a66577ae2c410f2d08e0a819274127e15c8fa70f70413eb25493aaa8474150b58883892095415ef21a3a9072ff41685d09c4fee737417035e5774d9c274171fbe58a46a425417032a34018cb08416671bfeec5e3b44154ce73db332489,
  0x415f83a0f78e18cc41842f3c084a925941a1f742bc7c3cf341b9a569699fc13e41cf1e83b5b20aee41e090804bc6307d41ef8f3d635bd87841fb43ce9f03bf88420590e52f07ebf1420f750daaaa49e9421544653dfcb902421ac3ce7dbd4a86421f7309d6193dee42214acb5af9ec664221d3f2b41026c0422140de186a2935421f5f3ba122dfe0421acdf595500000421585d8526e311c42103c27a15120e24206fdd92994965141fe87b343dcece041f2fa185c70560441e60ace4c2c2db641d7dc843a893a0841c7ffe20894bb6941b657a4ccae8b9141a329ae709c4465418e1ced8c6346e9417585e465555544415bbe49cfe8e2bc413fe3e53244c26c41201c3fae617b1240fc11a2c3b01d1040d486a8456b04fc40a83a4542e510684075ab7abbc4f023403a2744ce9674f43ff00000000000004039bfb076d236ea40745b301e6ed82140a508b8183d8e0240cfe0c7fd8c9bed40f2d7abafa943de41120a5023483aed412cab5b0916c9934143371d20dcec874155f49fc9c2c816416583108349f79e41721c030c336c2e417a2381bdda6d4a41800dccbf53b777418089bdb97db7ba417bce0f28ced7f541720f50a91a4d0d415f83a0f78e18cc,
  0x4166e4ff15c27199418c8e3e575f265141a8badb49ecf22841c1291bdf91a53741d43a52f25919c341e4e69b75c9714f41f34eade4cf1726420028a23bdbc4b44208bce6b373d5bc421170c8e7a735c74216c4ce7cc54687421ba19ae6c8a7a9421f43d15e8fb8e7422087915c75384042205c2a7d487c7c421e589fffd3386d421a63cd11bb222c421585d8526e311c4210757bd9700000420796c0c0041de841ffa5d654bb279941f3d84b0601255041e738200a1f4ef241d948be027f50fd41c98bd1ae510d8341b7dbd91ef40bd441a480b47f97462141901e9d7b8698f34177072a1e2dff12415da055f2cc4c1e4140f90127309184412112292634cda940fd915726eb015b40d576fe37706f7a40a91d56c8d2560840763b98035e266b403a839f261422cd3ff0000000000000403a2744ce9674f440750b585d2da9f440a62ec2ab6ad94c40d130e56e61c8c540f4d7cd975db85e4114887925373a5c4130d9bbf7acca5741476e68738cf0eb415beb4e7ee10d12416cb5eb79fc539d417992bf232ea5424183bbfa12c0cccf418a4afc2d04f5b2418dfd83dfe5f4c6418cd5c7a521cd104186b98b3d033f63417bc8ab5bede0174166e4ff15c27199,
  0x416ff2e9635fc249419362cc8c1189ea41b052860c8e95ed41c6016f23ff825041d92d09c9f9f20141e939a9c7a7965041f692eac4948cc64202487b9dbbb674420b0ea5984f113d42126afdc7b2b00c42172f9d853a244b421b1870128545e4421d7abe20b7cd69421deca30e7e1ff6421c6225172aa88f42192dfbb9c454e74214e6cc0f877cb142103c27a15120e2420796c0c0041de84200039b18c0000041f44aa1bfd9c92441e7f36b933acdab41da459b97e1976041cab3798658370041b90d00acdd172441a598af3ce77f71419103172dd24e5441785187907ec99b415f444095354c5a4141e0c73aa9ba254121ec7fa1af277340fee78a0b0716ae40d64da960a1c59140a9e7ec3c7f19bc4076bbb0d2986ee3403ad5336963eefb3ff0000000000000403a839f261422cd4075ab7abbc4f02340a73fb3de7b193840d2613beaf14e3840f6ca4ced53828d411706c2dcee49aa4133718845627477414bec6fc14ae009416141da1e2e93034172819e55776d9941814d04fb0919de418c408ef8d7fe0f41941fe10f58236a4198e5cc257a309e419a816cf020a2954197e44cc7ff778a4191b8aecbce01dc4184768293d99fcc416ff2e9635fc249,
  0x41756e94abacd7a24199495749de78c641b4aea103e1c8d741cb10353ae3aa1d41de062816b279e441ed248cc2c34d1a41f93d0693da8d364203c281f4bd8c26420c3bf1e0e98a0a4212885e56628ff542167763efb91b6142193ea4f320a539421a5e03096bad0a4219a6630bad8c27421745737afd9dba4213b4c7a7517c6b420f287f549071104206fdd92994965141ffa5d654bb279941f44aa1bfd9c92441e832f5bf00000041dac722de00fd7641cb6a29304f0fdb41b9df5215b973ec41a667f6c47372a14191b4ec052bd9f341795c2f87f1ecc641605036516d108d4142a4d05d0eee594122a7dc583c443f41000813efdba65240d708e9c5df7bcb40aa992b37b1e09b40772bc5a6fc1b2c403b1c62db2564fe3ff0000000000000403ad5336963eefb40763b98035e266b40a83a4542e5106840d37ea7841d335840f8a8bbe1f2f16441197af23dcc2b8d4136110983a0f4f741504dc9a86844234164d02148a07f474177272ba373bc9741869258f2bc2d06419357cb5676b759419d283a2e7fbbc641a3491f4d44717b41a644e5d2b5327241a639c095c9efd741a2dafc9a758c3b419a6ae32dd51a5a418ce61a9d908a0741756e94abacd7a2,
  0x417bab2531510c09419fb6464448393a41b92cbef5e4ff8b41cff1a025f305f941e12a605e0843bb41f01fcc4345892041faff3cb6e5a4d5420468677b61ea63420c1e61eff494b34211c5f72380a9da4214b794abf92c8842165913d4533d2842165e7e19e7f5954214d0819985aecf4212069f2cb127fa420d132e2e165b114205d6221b4eb9b541fe87b343dcece041f3d84b0601255041e7f36b933acdab41dac722de00fd7641cba7f44800000041ba4a967eebf98541a6e7511313485b41922ea1fd9d980b417a1ff94b428c164160d66bf8e8e284414341574d1d190f412341574d1d190f410083d8bd36d07240d7a73f6ad86e8940ab3059735c5e8f40778bd6e3d4a391403b597ea47fdda23ff0000000000000403b1c62db2564fe4076bbb0d2986ee340a91d56c8d2560840d486a8456b04fc40fa6d0d6be48636411bdafdcb8ce3f34138abd0c823e1374152b1f31aae811841688e649615e70d417c3683fd55c6fe418c8820e6b6773e41997f5671df599d41a42b5db669d59141ac3b34fc96e18241b16da880a2553c41b2dde2fe62a13341b1b8e378715eca41ac66371ae4b84e41a2d8f1882d7ef94193963a7577e71c417bab2531510c09,
  0x418132c0a3c2ab1441a321c0c230476b41bd74957f9105f341d21a8e4d0349fe41e2d43abe05f7a041f118e3d24d430241fba39894a818874204259fec902bac420abb2c19f51b2642103f148caade1b42122e08ea09d3404212cb3752eb9a0b4211fe63836b3ea7420ff6d69ce066c2420a5d175fbe7125420432d7cadc90e041fcbe3d0e538adb41f2fa185c70560441e738200a1f4ef241da459b97e1976041cb6a29304f0fdb41ba4a967eebf98541a71245a000000041926c7332f26b43417a979bf3b1a9c7416131a8615145494143b3591e5506ae4123b6914f901a204100e5a11fa0166540d8276a524ebea140abacdb6a50f7224077dbe4d7336f1d403b8cc9d3952a453ff0000000000000403b597ea47fdda240772bc5a6fc1b2c40a9e7ec3c7f19bc40d576fe37706f7a40fc11a2c3b01d10411e1d399ccda306413b35588386ce31415515f7a8e420a4416c67e00d3433794180ca41aaa3146d41918961ec0665f441a041c4db3b3a0341aad22763a76a1041b3b36d25b2d34c41b9bcb460cb691e41bdca88451bb2c941be5a5188b6b99841baed72498f6a6341b470902566cf6a41a9c602cf9ee5354199825658405f3a418132c0a3c2ab14,
  0x418499b91de0bfda41a638de934af71d41c09270d883f3e041d3b6b62c14859741e3d1ef218e207341f160639c4dab3b41fb165a3351e09b42030375342785dd420841c911c6fe90420c4e528810dcfa420e5ad0a6754e67420e03fcd11b2406420b6e7492270c164207345d4204f95842022e8dab29195141fa64d4594b965f41f1bc7b382073d141e60ace4c2c2db641d948be027f50fd41cab3798658370041b9df5215b973ec41a6e7511313485b41926c7332f26b43417abfda0000000041615fcf6025e5224143f8a448021843412405bbfaedda9941012c4a8b98e53240d8886a7e4822da40ac0e33419dfdc240781befbd9d4690403bb67ae8584caa3ff0000000000000403b8cc9d3952a4540778bd6e3d4a39140aa992b37b1e09b40d64da960a1c59140fd915726eb015b41201c3fae617b12413da15075c2d46d41576cb7ad33b9de417022f00db3ac154183907eec852dd3419506949e1dd0a741a4216db340ec1941b139ddfe8d9c1e41ba63cb38e3dd3641c21789f5fc13d841c628741a4c58a141c823b95dc3bf1941c73a7138f312ac41c385bd8d1e379841bc27d8009ba88141b0e7f9507e5adb419ff1bff3bbc33a418499b91de0bfda,
  0x4187c992279b8afb41a8dba944c5edd041c1f093aee884d441d4a11e38e6c71441e40683e0185bda41f0edf860132c6141f969c4e164ca6d420126fb3c149d16420501d4f983772042077e0527a6808e420818e9b7f6be344206beb65e88d08d4203cc0546d4ecbf41ffd177eb87ec4e41f79e71357beb8341f030df978cc18f41e47ae56f5fbde841d7dc843a893a0841c98bd1ae510d8341b90d00acdd172441a667f6c47372a141922ea1fd9d980b417a979bf3b1a9c741615fcf6025e52241440fe38000000041242d9fb6bca12a410157042019588040d8c97ff02f71a540ac53ffeded142b40784bf7c4ba48b9403bd6bd06c2f2343ff0000000000000403bb67ae8584caa4077dbe4d7336f1d40ab3059735c5e8f40d708e9c5df7bcb40fee78a0b0716ae412112292634cda9413fe3e53244c26c4159a9132b20323b41720846785368fa41865bfec52a7d834198a511894a435341a84744c5e65ddb41b574ec4fb921a641c10ca2f5c9ead541c860bc2a8fed5f41cf560f8a9c911741d20f84d820ff6041d2952760c2755641d0f0a602ec2c4741cb0d12813d35bd41c293f187222e5b41b54bd54d27d77c41a33eb498572bb94187c992279b8afb,
  0x418a7d0f26e3e78141aac9af0ab3254141c2b0230038786641d4bfb1b07d6d9e41e36c0bd4fb00e241ef9f66e371aa3941f6d25a6401e5bc41fd92fa5bdcaa1d42015b14aeb58539420290a8d9c7c82d42022d78c7d1c93c42005728f9dae70f41fb05d981851dd341f492b0863836af41ecd89df0b9a35341e29c6c87105fc441d611e9697fcce241c7ffe20894bb6941b7dbd91ef40bd441a598af3ce77f714191b4ec052bd9f3417a1ff94b428c16416131a8615145494143f8a44802184341242d9fb6bca12a410165500000000040d8ea2aa8eb218b40ac7dfc8f7a244740786bfd0d441f18403bedb0defaf6613ff0000000000000403bd6bd06c2f23440781befbd9d469040abacdb6a50f72240d7a73f6ad86e8941000813efdba6524121ec7fa1af27734140f90127309184415bbe49cfe8e2bc4173d7de9cf99bc4418919954f2aae46419c4b2631c0def841ac9635b1ac992541b9fed63755469041c5554dc7ab17dd41cfa46c31f4e72b41d53535aec4146e41d9a85fc3949c3541dbeebd6ea155f441db3a2feee692e141d7945bf5b906e341d1ee23ad805c8c41c7822cf2d740ee41b9c6cf2c71334f41a652bc88ea9f0c418a7d0f26e3e781,
  0x418c7406a926267041abd0ca1f79fd2941c2bc63576a59b541d40f1b74f9503f41e214b91ed9beca41ec4e8c11d4ab4541f39c8e1d585ab241f85af18407b14e41fb57dd1d67e96041fbeb3ed56e265641fa08d73ae47c2341f63baf188ca7a441f16a93d81dcf5a41e90ba49d79e2e741e0869654d8143841d3fdcff0eeff0141c620615460823941b657a4ccae8b9141a480b47f974621419103172dd24e5441795c2f87f1ecc64160d66bf8e8e2844143b3591e5506ae412405bbfaedda99410157042019588040d8ea2aa8eb218b40ac8c000000000040787bffac5ad4cd403bfb6d57433c583ff0000000000000403bedb0defaf66140784bf7c4ba48b940ac0e33419dfdc240d8276a524ebea1410083d8bd36d0724122a7dc583c443f4141e0c73aa9ba25415da055f2cc4c1e417585e465555544418bb5a6ddf7ab5a419fdd204625a23641b07660ca385ac341beb504ad75124641c9edd6a488dc2641d3dc3279f9a62441db9dc3f0488a6741e16bb1816441f541e3e7afad6fef8741e487820365a03e41e302ab1b76fea941df5bebbdffeaff41d6c312cd94b5e541cc8bc2bf681f3f41bdfef24697596441a8f027f8e8f4a0418c7406a9262670,
  0x418d7cfc59cce1d141abd555d06e4e1341c2140a7d85e08a41d2a35b993f1a1e41e0276d3ea79b3441e8474a8db0fb1e41f01ea8fa66a73241f32602eae51daa41f4853fc87c6c1a41f3f46f2d6c4bfa41f1ad75228aac4741ec9a8d05f52b0d41e529716e4196c841dca4450c220f1c41d1b7aa64d8693241c401144d71421f41b48f23a76c4ee841a329ae709c446541901e9d7b8698f341785187907ec99b41605036516d108d414341574d1d190f4123b6914f901a2041012c4a8b98e53240d8c97ff02f71a540ac7dfc8f7a244740787bffac5ad4cd403c0000000000003ff0000000000000403bfb6d57433c5840786bfd0d441f1840ac53ffeded142b40d8886a7e4822da4100e5a11fa01665412341574d1d190f4142a4d05d0eee59415f444095354c5a4177072a1e2dff12418e1ced8c6346e941a19f4321ca8cc741b29349b5a0068a41c1b7aa64d8693241ceb000d6247de841d82f5d104af57741e15dd59f0bb59141e6ba7207d6dd8041eb14e006c9d4d441ed50a442fae39341ecb9046057ac7f41e954c064ea747441e3f16af463a9b441dbb14d8ffac0ec41d0a42411f8575141c0c977748e99a541aad6dbe46a5d92418d7cfc59cce1d1,
  0x418d7cfc59cce1d141aad6dbe46a5d9241c0c977748e99a541d0a42411f8575141dbb14d8ffac0ec41e3f16af463a9b441e954c064ea747441ecb9046057ac7f41ed50a442fae39341eb14e006c9d4d441e6ba7207d6dd8041e15dd59f0bb59141d82f5d104af57741ceb000d6247de841c1b7aa64d8693241b29349b5a0068a41a19f4321ca8cc7418e1ced8c6346e94177072a1e2dff12415f444095354c5a4142a4d05d0eee59412341574d1d190f4100e5a11fa0166540d8886a7e4822da40ac53ffeded142b40786bfd0d441f18403bfb6d57433c583ff0000000000000403c00000000000040787bffac5ad4cd40ac7dfc8f7a244740d8c97ff02f71a541012c4a8b98e5324123b6914f901a20414341574d1d190f41605036516d108d41785187907ec99b41901e9d7b8698f341a329ae709c446541b48f23a76c4ee841c401144d71421f41d1b7aa64d8693241dca4450c220f1c41e529716e4196c841ec9a8d05f52b0d41f1ad75228aac4741f3f46f2d6c4bfa41f4853fc87c6c1a41f32602eae51daa41f01ea8fa66a73241e8474a8db0fb1e41e0276d3ea79b3441d2a35b993f1a1e41c2140a7d85e08a41abd555d06e4e13418d7cfc59cce1d1,
  0x418c7406a926267041a8f027f8e8f4a041bdfef24697596441cc8bc2bf681f3f41d6c312cd94b5e541df5bebbdffeaff41e302ab1b76fea941e487820365a03e41e3e7afad6fef8741e16bb1816441f541db9dc3f0488a6741d3dc3279f9a62441c9edd6a488dc2641beb504ad75124641b07660ca385ac3419fdd204625a236418bb5a6ddf7ab5a417585e465555544415da055f2cc4c1e4141e0c73aa9ba254122a7dc583c443f410083d8bd36d07240d8276a524ebea140ac0e33419dfdc240784bf7c4ba48b9403bedb0defaf6613ff0000000000000403bfb6d57433c5840787bffac5ad4cd40ac8c000000000040d8ea2aa8eb218b4101570420195880412405bbfaedda994143b3591e5506ae4160d66bf8e8e28441795c2f87f1ecc6419103172dd24e5441a480b47f97462141b657a4ccae8b9141c620615460823941d3fdcff0eeff0141e0869654d8143841e90ba49d79e2e741f16a93d81dcf5a41f63baf188ca7a441fa08d73ae47c2341fbeb3ed56e265641fb57dd1d67e96041f85af18407b14e41f39c8e1d585ab241ec4e8c11d4ab4541e214b91ed9beca41d40f1b74f9503f41c2bc63576a59b541abd0ca1f79fd29418c7406a9262670,
  0x418a7d0f26e3e78141a652bc88ea9f0c41b9c6cf2c71334f41c7822cf2d740ee41d1ee23ad805c8c41d7945bf5b906e341db3a2feee692e141dbeebd6ea155f441d9a85fc3949c3541d53535aec4146e41cfa46c31f4e72b41c5554dc7ab17dd41b9fed63755469041ac9635b1ac9925419c4b2631c0def8418919954f2aae464173d7de9cf99bc4415bbe49cfe8e2bc4140f901273091844121ec7fa1af277341000813efdba65240d7a73f6ad86e8940abacdb6a50f72240781befbd9d4690403bd6bd06c2f2343ff0000000000000403bedb0defaf66140786bfd0d441f1840ac7dfc8f7a244740d8ea2aa8eb218b410165500000000041242d9fb6bca12a4143f8a448021843416131a861514549417a1ff94b428c164191b4ec052bd9f341a598af3ce77f7141b7dbd91ef40bd441c7ffe20894bb6941d611e9697fcce241e29c6c87105fc441ecd89df0b9a35341f492b0863836af41fb05d981851dd342005728f9dae70f42022d78c7d1c93c420290a8d9c7c82d42015b14aeb5853941fd92fa5bdcaa1d41f6d25a6401e5bc41ef9f66e371aa3941e36c0bd4fb00e241d4bfb1b07d6d9e41c2b0230038786641aac9af0ab32541418a7d0f26e3e781,
  0x4187c992279b8afb41a33eb498572bb941b54bd54d27d77c41c293f187222e5b41cb0d12813d35bd41d0f0a602ec2c4741d2952760c2755641d20f84d820ff6041cf560f8a9c911741c860bc2a8fed5f41c10ca2f5c9ead541b574ec4fb921a641a84744c5e65ddb4198a511894a435341865bfec52a7d8341720846785368fa4159a9132b20323b413fe3e53244c26c412112292634cda940fee78a0b0716ae40d708e9c5df7bcb40ab3059735c5e8f4077dbe4d7336f1d403bb67ae8584caa3ff0000000000000403bd6bd06c2f23440784bf7c4ba48b940ac53ffeded142b40d8c97ff02f71a5410157042019588041242d9fb6bca12a41440fe38000000041615fcf6025e522417a979bf3b1a9c741922ea1fd9d980b41a667f6c47372a141b90d00acdd172441c98bd1ae510d8341d7dc843a893a0841e47ae56f5fbde841f030df978cc18f41f79e71357beb8341ffd177eb87ec4e4203cc0546d4ecbf4206beb65e88d08d420818e9b7f6be3442077e0527a6808e420501d4f9837720420126fb3c149d1641f969c4e164ca6d41f0edf860132c6141e40683e0185bda41d4a11e38e6c71441c1f093aee884d441a8dba944c5edd04187c992279b8afb,
  0x418499b91de0bfda419ff1bff3bbc33a41b0e7f9507e5adb41bc27d8009ba88141c385bd8d1e379841c73a7138f312ac41c823b95dc3bf1941c628741a4c58a141c21789f5fc13d841ba63cb38e3dd3641b139ddfe8d9c1e41a4216db340ec19419506949e1dd0a74183907eec852dd3417022f00db3ac1541576cb7ad33b9de413da15075c2d46d41201c3fae617b1240fd915726eb015b40d64da960a1c59140aa992b37b1e09b40778bd6e3d4a391403b8cc9d3952a453ff0000000000000403bb67ae8584caa40781befbd9d469040ac0e33419dfdc240d8886a7e4822da41012c4a8b98e532412405bbfaedda994143f8a44802184341615fcf6025e522417abfda0000000041926c7332f26b4341a6e7511313485b41b9df5215b973ec41cab3798658370041d948be027f50fd41e60ace4c2c2db641f1bc7b382073d141fa64d4594b965f42022e8dab2919514207345d4204f958420b6e7492270c16420e03fcd11b2406420e5ad0a6754e67420c4e528810dcfa420841c911c6fe9042030375342785dd41fb165a3351e09b41f160639c4dab3b41e3d1ef218e207341d3b6b62c14859741c09270d883f3e041a638de934af71d418499b91de0bfda,
  0x418132c0a3c2ab144199825658405f3a41a9c602cf9ee53541b470902566cf6a41baed72498f6a6341be5a5188b6b99841bdca88451bb2c941b9bcb460cb691e41b3b36d25b2d34c41aad22763a76a1041a041c4db3b3a0341918961ec0665f44180ca41aaa3146d416c67e00d343379415515f7a8e420a4413b35588386ce31411e1d399ccda30640fc11a2c3b01d1040d576fe37706f7a40a9e7ec3c7f19bc40772bc5a6fc1b2c403b597ea47fdda23ff0000000000000403b8cc9d3952a454077dbe4d7336f1d40abacdb6a50f72240d8276a524ebea14100e5a11fa016654123b6914f901a204143b3591e5506ae416131a861514549417a979bf3b1a9c741926c7332f26b4341a71245a000000041ba4a967eebf98541cb6a29304f0fdb41da459b97e1976041e738200a1f4ef241f2fa185c70560441fcbe3d0e538adb420432d7cadc90e0420a5d175fbe7125420ff6d69ce066c24211fe63836b3ea74212cb3752eb9a0b42122e08ea09d34042103f148caade1b420abb2c19f51b264204259fec902bac41fba39894a8188741f118e3d24d430241e2d43abe05f7a041d21a8e4d0349fe41bd74957f9105f341a321c0c230476b418132c0a3c2ab14,
  0x417bab2531510c094193963a7577e71c41a2d8f1882d7ef941ac66371ae4b84e41b1b8e378715eca41b2dde2fe62a13341b16da880a2553c41ac3b34fc96e18241a42b5db669d59141997f5671df599d418c8820e6b6773e417c3683fd55c6fe41688e649615e70d4152b1f31aae81184138abd0c823e137411bdafdcb8ce3f340fa6d0d6be4863640d486a8456b04fc40a91d56c8d256084076bbb0d2986ee3403b1c62db2564fe3ff0000000000000403b597ea47fdda240778bd6e3d4a39140ab3059735c5e8f40d7a73f6ad86e89410083d8bd36d072412341574d1d190f414341574d1d190f4160d66bf8e8e284417a1ff94b428c1641922ea1fd9d980b41a6e7511313485b41ba4a967eebf98541cba7f44800000041dac722de00fd7641e7f36b933acdab41f3d84b0601255041fe87b343dcece04205d6221b4eb9b5420d132e2e165b114212069f2cb127fa4214d0819985aecf42165e7e19e7f59542165913d4533d284214b794abf92c884211c5f72380a9da420c1e61eff494b3420468677b61ea6341faff3cb6e5a4d541f01fcc4345892041e12a605e0843bb41cff1a025f305f941b92cbef5e4ff8b419fb6464448393a417bab2531510c09,
  0x41756e94abacd7a2418ce61a9d908a07419a6ae32dd51a5a41a2dafc9a758c3b41a639c095c9efd741a644e5d2b5327241a3491f4d44717b419d283a2e7fbbc6419357cb5676b75941869258f2bc2d064177272ba373bc974164d02148a07f4741504dc9a86844234136110983a0f4f741197af23dcc2b8d40f8a8bbe1f2f16440d37ea7841d335840a83a4542e5106840763b98035e266b403ad5336963eefb3ff0000000000000403b1c62db2564fe40772bc5a6fc1b2c40aa992b37b1e09b40d708e9c5df7bcb41000813efdba6524122a7dc583c443f4142a4d05d0eee5941605036516d108d41795c2f87f1ecc64191b4ec052bd9f341a667f6c47372a141b9df5215b973ec41cb6a29304f0fdb41dac722de00fd7641e832f5bf00000041f44aa1bfd9c92441ffa5d654bb27994206fdd929949651420f287f549071104213b4c7a7517c6b421745737afd9dba4219a6630bad8c27421a5e03096bad0a42193ea4f320a53942167763efb91b614212885e56628ff5420c3bf1e0e98a0a4203c281f4bd8c2641f93d0693da8d3641ed248cc2c34d1a41de062816b279e441cb10353ae3aa1d41b4aea103e1c8d74199495749de78c641756e94abacd7a2,
  0x416ff2e9635fc2494184768293d99fcc4191b8aecbce01dc4197e44cc7ff778a419a816cf020a2954198e5cc257a309e41941fe10f58236a418c408ef8d7fe0f41814d04fb0919de4172819e55776d99416141da1e2e9303414bec6fc14ae0094133718845627477411706c2dcee49aa40f6ca4ced53828d40d2613beaf14e3840a73fb3de7b19384075ab7abbc4f023403a839f261422cd3ff0000000000000403ad5336963eefb4076bbb0d2986ee340a9e7ec3c7f19bc40d64da960a1c59140fee78a0b0716ae4121ec7fa1af27734141e0c73aa9ba25415f444095354c5a41785187907ec99b419103172dd24e5441a598af3ce77f7141b90d00acdd172441cab3798658370041da459b97e1976041e7f36b933acdab41f44aa1bfd9c9244200039b18c00000420796c0c0041de842103c27a15120e24214e6cc0f877cb142192dfbb9c454e7421c6225172aa88f421deca30e7e1ff6421d7abe20b7cd69421b1870128545e442172f9d853a244b42126afdc7b2b00c420b0ea5984f113d4202487b9dbbb67441f692eac4948cc641e939a9c7a7965041d92d09c9f9f20141c6016f23ff825041b052860c8e95ed419362cc8c1189ea416ff2e9635fc249,
  0x4166e4ff15c27199417bc8ab5bede0174186b98b3d033f63418cd5c7a521cd10418dfd83dfe5f4c6418a4afc2d04f5b24183bbfa12c0cccf417992bf232ea542416cb5eb79fc539d415beb4e7ee10d1241476e68738cf0eb4130d9bbf7acca574114887925373a5c40f4d7cd975db85e40d130e56e61c8c540a62ec2ab6ad94c40750b585d2da9f4403a2744ce9674f43ff0000000000000403a839f261422cd40763b98035e266b40a91d56c8d2560840d576fe37706f7a40fd915726eb015b412112292634cda94140f90127309184415da055f2cc4c1e4177072a1e2dff1241901e9d7b8698f341a480b47f97462141b7dbd91ef40bd441c98bd1ae510d8341d948be027f50fd41e738200a1f4ef241f3d84b0601255041ffa5d654bb2799420796c0c0041de84210757bd9700000421585d8526e311c421a63cd11bb222c421e589fffd3386d42205c2a7d487c7c422087915c753840421f43d15e8fb8e7421ba19ae6c8a7a94216c4ce7cc54687421170c8e7a735c74208bce6b373d5bc420028a23bdbc4b441f34eade4cf172641e4e69b75c9714f41d43a52f25919c341c1291bdf91a53741a8badb49ecf228418c8e3e575f26514166e4ff15c27199,
  0x415f83a0f78e18cc41720f50a91a4d0d417bce0f28ced7f5418089bdb97db7ba41800dccbf53b777417a2381bdda6d4a41721c030c336c2e416583108349f79e4155f49fc9c2c8164143371d20dcec87412cab5b0916c99341120a5023483aed40f2d7abafa943de40cfe0c7fd8c9bed40a508b8183d8e0240745b301e6ed8214039bfb076d236ea3ff0000000000000403a2744ce9674f44075ab7abbc4f02340a83a4542e5106840d486a8456b04fc40fc11a2c3b01d1041201c3fae617b12413fe3e53244c26c415bbe49cfe8e2bc417585e465555544418e1ced8c6346e941a329ae709c446541b657a4ccae8b9141c7ffe20894bb6941d7dc843a893a0841e60ace4c2c2db641f2fa185c70560441fe87b343dcece04206fdd92994965142103c27a15120e2421585d8526e311c421acdf595500000421f5f3ba122dfe0422140de186a29354221d3f2b41026c042214acb5af9ec66421f7309d6193dee421ac3ce7dbd4a86421544653dfcb902420f750daaaa49e9420590e52f07ebf141fb43ce9f03bf8841ef8f3d635bd87841e090804bc6307d41cf1e83b5b20aee41b9a569699fc13e41a1f742bc7c3cf341842f3c084a9259415f83a0f78e18cc,
  0x4154ce73db332489416671bfeec5e3b4417032a34018cb084171fbe58a46a425417035e5774d9c2741685d09c4fee737415ef21a3a9072ff4150b58883892095413eb25493aaa8474127e15c8fa70f70410f2d08e0a8192740f0d0a66577ae2c40cd456f0d03951940a3cf04036e676640739b00fe9f6b8a40394c583ada5b523ff00000000000004039bfb076d236ea40750b585d2da9f440a73fb3de7b193840d37ea7841d335840fa6d0d6be48636411e1d399ccda306413da15075c2d46d4159a9132b20323b4173d7de9cf99bc4418bb5a6ddf7ab5a41a19f4321ca8cc741b48f23a76c4ee841c620615460823941d611e9697fcce241e47ae56f5fbde841f1bc7b382073d141fcbe3d0e538adb4205d6221b4eb9b5420f287f549071104214e6cc0f877cb1421a63cd11bb222c421f5f3ba122dfe042218f885a7c0000422282b51cb8f88942225ca51b2a20a342212005bb9b3a10421dfdf17a9f6f2342189ceb037b5ff74212e20515ea1f89420affe0dd568e3f4201e9b05451f2df41f5f04c7fad9c4641e89ff54ab451c741d916cf2f7cfeda41c6e4cd6242b14641b257df2ed69fb64199015f37bfdfd5417b5aa1eb012d834154ce73db332489,
  0x414a517d20abba9d415a9d9efab53d094161ed7ca65ffc6641627b9c1e4523fc415ec1dfed518c2d41552fe48cbed41d414876f8cebe0b224137c7095a792d3341236a0b65add882410a6e40586a504b40ed93796bbc63dc40ca963fce59fcb740a283437ef3bee44072cac9b252fca24038cc97f2912db53ff000000000000040394c583ada5b5240745b301e6ed82140a62ec2ab6ad94c40d2613beaf14e3840f8a8bbe1f2f164411bdafdcb8ce3f3413b35588386ce3141576cb7ad33b9de41720846785368fa418919954f2aae46419fdd204625a23641b29349b5a0068a41c401144d71421f41d3fdcff0eeff0141e29c6c87105fc441f030df978cc18f41fa64d4594b965f420432d7cadc90e0420d132e2e165b114213b4c7a7517c6b42192dfbb9c454e7421e589fffd3386d422140de186a2935422282b51cb8f8894222bb3c1c4000004221ddc47d6839e942200bb3d9c4252a421b19151a132daa4215789f0f154e18420fd8ce943a90aa42060896889032c141fc529c507df5f341f0d186c095cd6941e2528e85bee02841d222727a8ba58d41c0168d51a82db341a91578723943204190a5aa9a7db3834171be69fc78d35b414a517d20abba9d,
  0x413fd673fd36ea2c414e0d0c4f5f50234152cbb71fffff0a4151e3204c9b0d6d414b491db2a5c2634141163fd36b58eb4131c1da6df0fa27411eae7f011fd7e14105eb85e7b8957a40e99432b7b5f26a40c7da39ea176f5840a1274576ad1e994071ea88886804b640383fab8b4d43153ff00000000000004038cc97f2912db540739b00fe9f6b8a40a508b8183d8e0240d130e56e61c8c540f6ca4ced53828d41197af23dcc2b8d4138abd0c823e137415515f7a8e420a4417022f00db3ac1541865bfec52a7d83419c4b2631c0def841b07660ca385ac341c1b7aa64d8693241d1b7aa64d8693241e0869654d8143841ecd89df0b9a35341f79e71357beb8342022e8dab291951420a5d175fbe71254212069f2cb127fa421745737afd9dba421c6225172aa88f42205c2a7d487c7c4221d3f2b41026c042225ca51b2a20a34221ddc47d6839e9422068f41d200000421c6c43d8830d9a42172c35678e22c14211bfb9d266b94242097a08911ca8bb42011350459dfa8941f548c43b86422141e888cc86eae63c41d9f6f909c5128d41c8fc0d74d700bb41b590e80b4710a741a05eb7d864c20041852bca0c21c1074166006903413619413fd673fd36ea2c,
  0x413261aa91678ed241401c53d24923c041429a5cf42ed01541403a7ac51718b84136813a013f5aad41295e13787cd31341176ef8726755604101b6cba2377bcc40e5b1f7aba4cbe140c518dcdf09dbb4409f7a20fa05fb354070fa3b41afe8ac4037a4a77fcc0e4b3ff000000000000040383fab8b4d43154072cac9b252fca240a3cf04036e676640cfe0c7fd8c9bed40f4d7cd975db85e411706c2dcee49aa4136110983a0f4f74152b1f31aae8118416c67e00d3433794183907eec852dd34198a511894a435341ac9635b1ac992541beb504ad75124641ceb000d6247de841dca4450c220f1c41e90ba49d79e2e741f492b0863836af41ffd177eb87ec4e4207345d4204f958420ff6d69ce066c24214d0819985aecf4219a6630bad8c27421deca30e7e1ff6422087915c75384042214acb5af9ec6642212005bb9b3a1042200bb3d9c4252a421c6c43d8830d9a4217c423c04000004212baf27761f58b420bc45ac9291f6f42034e3740b88ead41f9182a35e41af041ee5c17977c2d5e41e0ff7713d0a1f041d17d3c9e96808341c05fc8def4353641ab860baafaeffe41945b41d4c33cc54179ab252e76bf1e415a066004ec4d71413261aa91678ed2,
  0x412436bd8b92c47541305a92357254d641314f620869c5d7412b74a16ad4e152412122216dafc2a541112ab8f09281ab40fbc06c7685fa6140e1fb3bde76ad1340c25a27e84a4f4c409c8dd4394d758f406ff3bda6d9c9504036fa6ea162d0f03ff00000000000004037a4a77fcc0e4b4071ea88886804b640a283437ef3bee440cd456f0d03951940f2d7abafa943de4114887925373a5c413371884562747741504dc9a868442341688e649615e70d4180ca41aaa3146d419506949e1dd0a741a84744c5e65ddb41b9fed63755469041c9edd6a488dc2641d82f5d104af57741e529716e4196c841f16a93d81dcf5a41fb05d981851dd34203cc0546d4ecbf420b6e7492270c164211fe63836b3ea742165e7e19e7f595421a5e03096bad0a421d7abe20b7cd69421f43d15e8fb8e7421f7309d6193dee421dfdf17a9f6f23421b19151a132daa42172c35678e22c14212baf27761f58b420c920d3fc0000042048400e97aa3a041fba9ccd73a9c8341f17348f9c7dca341e482330e4ca29d41d653b174a226c941c659f3cfb7186541b4602a127e586d41a0af8ff300d89c41881088e62a0acd416d9aac05a9425a414d4cf09fc22d55412436bd8b92c475,
  0x41151cd70fd84fa0411f50ac622d2813411e220c2c3adea9411581dfb670d4ec4107dc37f8d3f95b40f4eb292d04a67940dcfc541a92896740bf4d339c8a051140998ec0705f9f90406dd2de0d004ae540363fa3f3c029613ff00000000000004036fa6ea162d0f04070fa3b41afe8ac40a1274576ad1e9940ca963fce59fcb740f0d0a66577ae2c41120a5023483aed4130d9bbf7acca57414bec6fc14ae0094164d02148a07f47417c3683fd55c6fe41918961ec0665f441a4216db340ec1941b574ec4fb921a641c5554dc7ab17dd41d3dc3279f9a62441e15dd59f0bb59141ec9a8d05f52b0d41f63baf188ca7a442005728f9dae70f4206beb65e88d08d420e03fcd11b24064212cb3752eb9a0b42165913d4533d2842193ea4f320a539421b1870128545e4421ba19ae6c8a7a9421ac3ce7dbd4a8642189ceb037b5ff74215789f0f154e184211bfb9d266b942420bc45ac9291f6f42048400e97aa3a041fc920d3fc0000041f2b2197076408f41e6e9bca4d7037441da2e3e8daec21a41cbbb46fe04af3f41bb0806243d381e41a80294c2d6811341932ba6c54de921417af94892ad82824160324cf15fa47b413f50ac622d281341151cd70fd84fa0,
  0x4104e072ec1e1ab7410c267415206a2a410860f8c50a894540feef0f61317c0740ee073b78d3867740d690b7ca048e2340ba0e6119c6a60d409682aa823b26fd406b91cbb254e15e403572969b8b5cd83ff000000000000040363fa3f3c02961406ff3bda6d9c950409f7a20fa05fb3540c7da39ea176f5840ed93796bbc63dc410f2d08e0a81927412cab5b0916c99341476e68738cf0eb416141da1e2e93034177272ba373bc97418c8820e6b6773e41a041c4db3b3a0341b139ddfe8d9c1e41c10ca2f5c9ead541cfa46c31f4e72b41db9dc3f0488a6741e6ba7207d6dd8041f1ad75228aac4741fa08d73ae47c2342022d78c7d1c93c420818e9b7f6be34420e5ad0a6754e6742122e08ea09d3404214b794abf92c8842167763efb91b6142172f9d853a244b4216c4ce7cc54687421544653dfcb9024212e20515ea1f89420fd8ce943a90aa42097a08911ca8bb42034e3740b88ead41fba9ccd73a9c8341f2b2197076408f41e7c4cca2c0000041dc523eadf4f52a41cf7c4c6de7f4d141c03c8d21558f5b41aed76d270685a4419ab5a3cafa8c4e4184ce42d4d78f4b416c93d9b54a37144150c2ab07773e5f412fab4297c477704104e072ec1e1ab7,
  0x40f377b96c71b1bf40f7a00c17fce79340f22fc9f7c4da5b40e43131703cb70940d0cd0756006c1040b50ad136c791c940937020ecf5664240693074e115a993403491248a282eec3ff0000000000000403572969b8b5cd8406dd2de0d004ae5409c8dd4394d758f40c518dcdf09dbb440e99432b7b5f26a410a6e40586a504b4127e15c8fa70f704143371d20dcec87415beb4e7ee10d124172819e55776d9941869258f2bc2d0641997f5671df599d41aad22763a76a1041ba63cb38e3dd3641c860bc2a8fed5f41d53535aec4146e41e16bb1816441f541eb14e006c9d4d441f3f46f2d6c4bfa41fbeb3ed56e2656420290a8d9c7c82d42077e0527a6808e420c4e528810dcfa42103f148caade1b4211c5f72380a9da4212885e56628ff542126afdc7b2b00c421170c8e7a735c7420f750daaaa49e9420affe0dd568e3f42060896889032c142011350459dfa8941f9182a35e41af041f17348f9c7dca341e6e9bca4d7037441dc523eadf4f52a41d06ab6da80000041c1c551d0ecd09041b1dbb2752eb2a741a0897364f3cca7418bf1b58637576241753fca08c105a0415c8206159a4a6a414056ef749adc2e411e300f73fc0b7540f377b96c71b1bf,
  0x40e109b496c3d1da40e2610ed3a1dffd40d8c26bf65b202040c79008d3db093b40b05676a0a8b14440905ea80185029b4066aebe60e150174033988e1409212e3ff0000000000000403491248a282eec406b91cbb254e15e40998ec0705f9f9040c25a27e84a4f4c40e5b1f7aba4cbe14105eb85e7b8957a41236a0b65add882413eb25493aaa8474155f49fc9c2c816416cb5eb79fc539d41814d04fb0919de419357cb5676b75941a42b5db669d59141b3b36d25b2d34c41c21789f5fc13d841cf560f8a9c911741d9a85fc3949c3541e3e7afad6fef8741ed50a442fae39341f4853fc87c6c1a41fb57dd1d67e96042015b14aeb58539420501d4f9837720420841c911c6fe90420abb2c19f51b26420c1e61eff494b3420c3bf1e0e98a0a420b0ea5984f113d4208bce6b373d5bc420590e52f07ebf14201e9b05451f2df41fc529c507df5f341f548c43b86422141ee5c17977c2d5e41e482330e4ca29d41da2e3e8daec21a41cf7c4c6de7f4d141c1c551d0ecd09041b2be3d9700000041a25d4be36ae26441909747895f7679417b5e31af378385416453b7eecc7456414aa6a5209f8c63412ddf22d338cc30410afe8dc6d5c0fb40e109b496c3d1da,
  0x40cbd2a29821d81440ca42e956aa7c2840be52f312afe9e940a80c6b5eb5ce1e408aadef221667a540640c7c1a6f19614032852fb49899cc3ff00000000000004033988e1409212e40693074e115a993409682aa823b26fd40bf4d339c8a051140e1fb3bde76ad134101b6cba2377bcc411eae7f011fd7e14137c7095a792d334150b58883892095416583108349f79e417992bf232ea542418c408ef8d7fe0f419d283a2e7fbbc641ac3b34fc96e18241b9bcb460cb691e41c628741a4c58a141d20f84d820ff6041dbeebd6ea155f441e487820365a03e41ecb9046057ac7f41f32602eae51daa41f85af18407b14e41fd92fa5bdcaa1d420126fb3c149d1642030375342785dd4204259fec902bac420468677b61ea634203c281f4bd8c264202487b9dbbb674420028a23bdbc4b441fb43ce9f03bf8841f5f04c7fad9c4641f0d186c095cd6941e888cc86eae63c41e0ff7713d0a1f041d653b174a226c941cbbb46fe04af3f41c03c8d21558f5b41b1dbb2752eb2a741a25d4be36ae26441918df640000000417ef69a8f6767264168f1b63a4807c841521b1316d462284137360b49cfee7b41197355268a7fbf40f6827edc92214740cbd2a29821d814,
  0x40b50834c0fa519c40b10409854762d640a05f99470bf8e94084c6a57d607f2f406149619f772bb04031520cd1372fea3ff00000000000004032852fb49899cc4066aebe60e1501740937020ecf5664240ba0e6119c6a60d40dcfc541a92896740fbc06c7685fa6141176ef8726755604131c1da6df0fa27414876f8cebe0b22415ef21a3a9072ff41721c030c336c2e4183bbfa12c0cccf41941fe10f58236a41a3491f4d44717b41b16da880a2553c41bdca88451bb2c941c823b95dc3bf1941d2952760c2755641db3a2feee692e141e302ab1b76fea941e954c064ea747441f01ea8fa66a73241f39c8e1d585ab241f6d25a6401e5bc41f969c4e164ca6d41fb165a3351e09b41fba39894a8188741faff3cb6e5a4d541f93d0693da8d3641f692eac4948cc641f34eade4cf172641ef8f3d635bd87841e89ff54ab451c741e2528e85bee02841d9f6f909c5128d41d17d3c9e96808341c659f3cfb7186541bb0806243d381e41aed76d270685a441a0897364f3cca741909747895f7679417ef69a8f676726416aac09000000004154ffaefd073dae413dce78339123744122b0b446b0b59e41040eb55d6eaa8440e15ec9b80e34e540b50834c0fa519c,
  0x409d2493249245ea4093a5eb220e5de5407e4010ecf0afb6405cc9bb91eb1cc9402feffbfdfebf1f3ff00000000000004031520cd1372fea40640c7c1a6f196140905ea80185029b40b50ad136c791c940d690b7ca048e2340f4eb292d04a67941112ab8f09281ab41295e13787cd3134141163fd36b58eb41552fe48cbed41d41685d09c4fee737417a2381bdda6d4a418a4afc2d04f5b24198e5cc257a309e41a644e5d2b5327241b2dde2fe62a13341be5a5188b6b99841c73a7138f312ac41d0f0a602ec2c4741d7945bf5b906e341df5bebbdffeaff41e3f16af463a9b441e8474a8db0fb1e41ec4e8c11d4ab4541ef9f66e371aa3941f0edf860132c6141f160639c4dab3b41f118e3d24d430241f01fcc4345892041ed248cc2c34d1a41e939a9c7a7965041e4e69b75c9714f41e090804bc6307d41d916cf2f7cfeda41d222727a8ba58d41c8fc0d74d700bb41c05fc8def4353641b4602a127e586d41a80294c2d68113419ab5a3cafa8c4e418bf1b586375762417b5e31af3783854168f1b63a4807c84154ffaefd073dae41402a34000000004126723e6ee7467b410b8d1082a6028d40ecf35032c2582940c88f65ea91f55e409d2493249245ea,
  0x40823ffe3f1f7a374073afc57c00cf8c4056bb6d412f5e63402cd82b446159f33ff0000000000000402feffbfdfebf1f406149619f772bb0408aadef221667a540b05676a0a8b14440d0cd0756006c1040ee073b78d386774107dc37f8d3f95b412122216dafc2a54136813a013f5aad414b491db2a5c263415ec1dfed518c2d417035e5774d9c2741800dccbf53b777418dfd83dfe5f4c6419a816cf020a29541a639c095c9efd741b1b8e378715eca41baed72498f6a6341c385bd8d1e379841cb0d12813d35bd41d1ee23ad805c8c41d6c312cd94b5e541dbb14d8ffac0ec41e0276d3ea79b3441e214b91ed9beca41e36c0bd4fb00e241e40683e0185bda41e3d1ef218e207341e2d43abe05f7a041e12a605e0843bb41de062816b279e441d92d09c9f9f20141d43a52f25919c341cf1e83b5b20aee41c6e4cd6242b14641c0168d51a82db341b590e80b4710a741ab860baafaeffe41a0af8ff300d89c41932ba6c54de9214184ce42d4d78f4b41753fca08c105a0416453b7eecc745641521b1316d46228413dce78339123744126723e6ee7467b410e81600000000040f254d9af5b269c40d2de94309bd1d940af6022bda14ac840823ffe3f1f7a37,
  0x40643f1c6cc855e440506157e242edb340293813088978c43ff0000000000000402cd82b446159f3405cc9bb91eb1cc94084c6a57d607f2f40a80c6b5eb5ce1e40c79008d3db093b40e43131703cb70940feef0f61317c07411581dfb670d4ec412b74a16ad4e15241403a7ac51718b84151e3204c9b0d6d41627b9c1e4523fc4171fbe58a46a425418089bdb97db7ba418cd5c7a521cd104197e44cc7ff778a41a2dafc9a758c3b41ac66371ae4b84e41b470902566cf6a41bc27d8009ba88141c293f187222e5b41c7822cf2d740ee41cc8bc2bf681f3f41d0a42411f8575141d2a35b993f1a1e41d40f1b74f9503f41d4bfb1b07d6d9e41d4a11e38e6c71441d3b6b62c14859741d21a8e4d0349fe41cff1a025f305f941cb10353ae3aa1d41c6016f23ff825041c1291bdf91a53741b9a569699fc13e41b257df2ed69fb641a915787239432041a05eb7d864c20041945b41d4c33cc541881088e62a0acd417af94892ad8282416c93d9b54a3714415c8206159a4a6a414aa6a5209f8c634137360b49cfee7b4122b0b446b0b59e410b8d1082a6028d40f254d9af5b269c40d595000000000040b5c5686e5ead424091bec9dfc8818240643f1c6cc855e4,
  0x40434491be50521a4024c8dc2e42397f3ff000000000000040293813088978c44056bb6d412f5e63407e4010ecf0afb640a05f99470bf8e940be52f312afe9e940d8c26bf65b202040f22fc9f7c4da5b410860f8c50a8945411e220c2c3adea941314f620869c5d741429a5cf42ed0154152cbb71fffff0a4161ed7ca65ffc66417032a34018cb08417bce0f28ced7f54186b98b3d033f634191b8aecbce01dc419a6ae32dd51a5a41a2d8f1882d7ef941a9c602cf9ee53541b0e7f9507e5adb41b54bd54d27d77c41b9c6cf2c71334f41bdfef24697596441c0c977748e99a541c2140a7d85e08a41c2bc63576a59b541c2b0230038786641c1f093aee884d441c09270d883f3e041bd74957f9105f341b92cbef5e4ff8b41b4aea103e1c8d741b052860c8e95ed41a8badb49ecf22841a1f742bc7c3cf34199015f37bfdfd54190a5aa9a7db38341852bca0c21c1074179ab252e76bf1e416d9aac05a9425a4160324cf15fa47b4150c2ab07773e5f414056ef749adc2e412ddf22d338cc3041197355268a7fbf41040eb55d6eaa8440ecf35032c2582940d2de94309bd1d940b5c5686e5ead42409588000000000040713656564ed79d40434491be50521a,
  0x401daa2fefaae1d73ff00000000000004024c8dc2e42397f40506157e242edb34073afc57c00cf8c4093a5eb220e5de540b10409854762d640ca42e956aa7c2840e2610ed3a1dffd40f7a00c17fce793410c267415206a2a411f50ac622d281341305a92357254d641401c53d24923c0414e0d0c4f5f5023415a9d9efab53d09416671bfeec5e3b441720f50a91a4d0d417bc8ab5bede0174184768293d99fcc418ce61a9d908a074193963a7577e71c4199825658405f3a419ff1bff3bbc33a41a33eb498572bb941a652bc88ea9f0c41a8f027f8e8f4a041aad6dbe46a5d9241abd555d06e4e1341abd0ca1f79fd2941aac9af0ab3254141a8dba944c5edd041a638de934af71d41a321c0c230476b419fb6464448393a4199495749de78c6419362cc8c1189ea418c8e3e575f265141842f3c084a9259417b5aa1eb012d834171be69fc78d35b4166006903413619415a066004ec4d71414d4cf09fc22d55413f50ac622d2813412fab4297c47770411e300f73fc0b75410afe8dc6d5c0fb40f6827edc92214740e15ec9b80e34e540c88f65ea91f55e40af6022bda14ac84091bec9dfc8818240713656564ed79d404b000000000000401daa2fefaae1d7,
  0x3ff0000000000000401daa2fefaae1d740434491be50521a40643f1c6cc855e440823ffe3f1f7a37409d2493249245ea40b50834c0fa519c40cbd2a29821d81440e109b496c3d1da40f377b96c71b1bf4104e072ec1e1ab741151cd70fd84fa0412436bd8b92c475413261aa91678ed2413fd673fd36ea2c414a517d20abba9d4154ce73db332489415f83a0f78e18cc4166e4ff15c27199416ff2e9635fc24941756e94abacd7a2417bab2531510c09418132c0a3c2ab14418499b91de0bfda4187c992279b8afb418a7d0f26e3e781418c7406a9262670418d7cfc59cce1d1418d7cfc59cce1d1418c7406a9262670418a7d0f26e3e7814187c992279b8afb418499b91de0bfda418132c0a3c2ab14417bab2531510c0941756e94abacd7a2416ff2e9635fc2494166e4ff15c27199415f83a0f78e18cc4154ce73db332489414a517d20abba9d413fd673fd36ea2c413261aa91678ed2412436bd8b92c47541151cd70fd84fa04104e072ec1e1ab740f377b96c71b1bf40e109b496c3d1da40cbd2a29821d81440b50834c0fa519c409d2493249245ea40823ffe3f1f7a3740643f1c6cc855e440434491be50521a401daa2fefaae1d73ff0000000000000]

/-- The coefficients for `2 ell = 56`: one number for each of the 57 values of `mp`, consisting of the doubles for the 57 values of `m`. -/
def wigner56 : List Nat := [
  0x3ff0000000000000401deeea11683f4940439f152d0f54704064cfc8a5c43b104082f05b3e81f78f409e89bd654a867740b6421bace7e01040cdbe6ad0a6791b40e2672e28db076940f540009ffffda5410708d276fd683a41178d59fe08858a4126cde4ff291b284134fa14f81d9053414261aa91678ed2414ec215f3cd50b241589e57fa72a49f4162e1ad4bdf0d8f416bcafad47feb164173a70ceb7a6b77417abaf7eccc416b41817fc640516172418612652e4dd640418ad5f667b999f1418f77bec016f88a4191cd04817a4cfb41936fefe38e473141947d19241e6add4194d9f0630f7a8f41947d19241e6add41936fefe38e47314191cd04817a4cfb418f77bec016f88a418ad5f667b999f1418612652e4dd64041817fc640516172417abaf7eccc416b4173a70ceb7a6b77416bcafad47feb164162e1ad4bdf0d8f41589e57fa72a49f414ec215f3cd50b2414261aa91678ed24134fa14f81d90534126cde4ff291b2841178d59fe08858a410708d276fd683a40f540009ffffda540e2672e28db076940cdbe6ad0a6791b40b6421bace7e010409e89bd654a86774082f05b3e81f78f4064cfc8a5c43b1040439f152d0f5470401deeea11683f493ff0000000000000,
  0x401deeea11683f49404b8000000000004071b2daae6e27b740926cb3c5db224540b073471862c5c940ca03e5254eda8140e29702c2680bb140f8584e451d9d11410d82b2060924b84120aed628f512d14131b2fa1dabdaba4141b4189fe08a564150c2ab07773e5f415e224782bdd4fd4169ca9f22d582f24175109f495c5423418072ee346b54a2418899ca6b0ab2fb4191a4337853cbab41984acc1428331d41a012ef80c1a1ba41a4760e7bd064e041a9120f3bce979e41ad95cee62a9e3841b0d1fa1573b32141b26f6adeb2254f41b37b081d7962fd41b3d991092201e941b3812f4aac53d141b27b1d1a287d5e41b0e218198b55ca41adbbf6b1826dba41a93af7202d8cb241a49eb6fd828d4e41a038dcae3a621b41988daafafa12a74191dc268f1009074188f2df6ea5d3a24180b6819a6a552841757261b2a6ddad416a517d20abba9d415ed3a46b5b6865415131bf6c8e574c41423872ae4f0faa413248ba93c7e6f341214f620869c5d7410ec7f5c44c44be40f98e8ee225bac840e3ac76aeb0c32540cbd2a29821d81440b1d8a67d30af1040946772779d37ed40743f1c6cc855e44050afbaf6d01f094024f9e6bbc4ecb33ff0000000000000401deeea11683f49,
  0x40439f152d0f54704071b2daae6e27b740965c000000000040b6d65bdeb2a9fa40d3ff8088d0369340ef017376eb53024105b67c2611c21f411bdab975268424413087d529fb507041424ae533b38bd14152fc21b7d60e814162914d762acdf441712dd0dc57e357417e2b0a641c5fe8418934bc8d2038d3419415a9dda32cbb419e952e5efd6f1c41a64878f1511b8941af1e273772f6f541b4d8739015df7641bad203d383650441c09525b7f731fe41c3b87cfa97c31941c691130027cf7d41c8dba944c5edd041ca5dae96bc11ba41caeeacc1834a8941ca7f1df5f758bc41c91b199c34c65f41c6e838cc72d81041c41f319f4a8d0541c102a22fb3243641bbaa239afd4edb41b5a05ce02626d841b03d9419aa283341a7692630e482d041a02d67e52aaeb5419568ae0999ec6b418b16f8fda7739341805be61713d0804172d1f526c3581141649311e9497efe41554ff8ebe0f7da4144d8da1aa7982c41332d3096b574d84120812869099aa0410a69ec2129d16640f37e77b095a8a840da42e956aa7c2840bfd5663cbe4de040a10409854762d6407f20940af6494c40572a4870255098402974b2334f23463ff00000000000004024f9e6bbc4ecb340439f152d0f5470,
  0x4064cfc8a5c43b1040926cb3c5db224540b6d65bdeb2a9fa40d6e0800000000040f3a3d36dad3f56410dd768283ab3974124789701fa0e564139b6d9cf86eee8414ddf22d338cc3041602b22406d5cec41706853ff0ffa8f417f5d46c9063135418c5806a6675fd741984b7d144d5ba541a3cdbfa572863741aec55c757ffb7d41b6d3a058cb6fe741c031b7b20abf0a41c600ebc2c1c13541cca93f116326d441d1e9487efd958c41d57f3fe11924ac41d8ca58db1df4b841db7b4acbb2c01c41dd4ba58b09dacf41de096c886f2a0641dd9fc161825ff441dc1a95031f868f41d9a47d1b4ad77541d67f35b4f1830b41d2f89795758a6041cebd0b1dfd024841c7e8adeadded3541c1d7442b7723f141b985011dcc037241b1793ac4a8499d41a6e0d512126d45419c983fb669a4a9419106e73c08a4134183477c6e1bc0724174b37ba68cf695416503a949fffceb415417f0a7de58ba41420454609eee1a412e220c2c3adea94117574689b1426341009a226642c2d740e5713bf6e7855240c8c26bf65b202040a902c5d8a25ddd408563e1b4be3ade405d58d90068ef10402d1ed52076fbe93ff0000000000000402974b2334f23464050afbaf6d01f094064cfc8a5c43b10,
  0x4082f05b3e81f78f40b073471862c5c940d3ff8088d0369340f3a3d36dad3f5641108614000000004128981e91ac98684140851ef8e7435e41544f49e095f0ac416714957b876d8e41786e175de7960541883a505f9f61d141969e41985f298741a3f40bab069aa641b0af8ff300d89c41ba85bd4a02139b41c413af25b57e3941cd00d34412359d41d4051f779952e941da723c480ba6c441e0bb5af2aa30e141e44c27ec2abf9641e79f6f8815f81941ea63f7d394ef5441ec4fc9aa09b10b41ed2ca0f7a7f40e41ece190b60fe38341eb7789028b041141e917a314cf12aa41e603a2fdc4975e41e28a87a2ec3db641ddf7b2dcb560ae41d738ede8eab9f141d13de284cec18641c8819f6b44f2b641c0a68aa16cc88c41b59a020d8dedd241aab63b302686a8419f6c1bad3ba9e241918a8f81d32f9d41828996897a56f041727b9c1e4523fc416151b847f6efae414e5c51d058f58f4138bf859e6fa7604122a03a059aab894109a623430b3d8d40efed364309cc6a40d1ac069ee446ec40b1013ef44fe2d5408b7be86c3d7dd94061a1056acf593540301fe03f61bad03ff0000000000000402d1ed52076fbe940572a487025509840743f1c6cc855e44082f05b3e81f78f,
  0x409e89bd654a867740ca03e5254eda8140ef017376eb5302410dd768283ab3974128981e91ac98684141ec02000000004157906a746007b7416c570a0d881335417f7d90e6705f4e41904984fba54dfa419f8dacc257729e41acc17a27f4ddb241b8bfc032d8c53b41c42dc3f3d9c78441cf408db1cd2e5a41d708de7d1cfb7141e030368983920041e5ba50e7900bec41ebe1d3ba4bbdfe41f11f19917ca2fb41f42407d4c7f4ce41f6b536aef08a1741f88ccf6fda663141f975961c321b7041f95495f1a3ca4941f82e25ca8a812341f6250141d6d17f41f373b6957596c441f0621694716cb541ea72729132290b41e47190690f5e0f41de3e775823cb0041d562c0169dee8f41cce065d225477641c296543040cca441b6c642dafec20c41aa816cf020a295419d3b1db96546c7418e75cbfe2367c7417de407e14b8659416b829b8e8776984157a149b482859d4142d4301fc1d599412ba06c4d0bb56941127b67e36ccbcb40f645010a5f714440d7c292b3e5b30c40b5eb5d0c69fc504090dfa12e5de8554064742e8b6df2e940317e2bca46bab93ff000000000000040301fe03f61bad0405d58d90068ef10407f20940af6494c40946772779d37ed409e89bd654a8677,
  0x40b6421bace7e01040e29702c2680bb14105b67c2611c21f4124789701fa0e564140851ef8e7435e4157906a746007b7416e4f21800000004181d22c42777f5141935a2099a0a07841a38d7781af20c441b27d244f86271f41c07046c20f860641cb96b84c08c66941d5ead6001b410341e086975343b9e241e7b3d4079a299341f031e7d497934a41f51d997b2cbbfb41fa4cb32821df0f41ff5215a596e0cc4201d8a294b0de32420378ca1f86942a4204598a80b4748642046032d6c32e6242038c700fd760a34201f845fefe8ad241ffa5e2d1a676e341fab01c3422805141f58a7b421a0f1541f0a172adbab39641e88ad784f538b041e14a12c54a0a2541d73a7138f312ac41cdb6b6ea975cb341c21043b2e2d0cb41b4d4b39831143841a6ba7453682b9a419764f0170b6d694186a303cf40473a4174813ff38bb2c841614c9703f559a0414b044ba2bcdbaf41335feeb96caf67411944db33248f8a40fd955751e0af3940de8db68a4aae1f40bb2a59e55ae7cd40940c7c1a6f19614067267ba1bec03f4032b5524ae1278d3ff000000000000040317e2bca46bab94061a1056acf5935408563e1b4be3ade40a10409854762d640b1d8a67d30af1040b6421bace7e010,
  0x40cdbe6ad0a6791b40f8584e451d9d11411bdab9752684244139b6d9cf86eee841544f49e095f0ac416c570a0d8813354181d22c42777f5141947af4a000000041a5b8fe80b9c7fd41b56cd88952082041c3c3f103c173c641d1225da455452741dc04d8cfaf399e41e5ac5e445d2f4141efccd889dc94fe41f62beeffbf77cf41fd6eabd106277842029f88ae45954442067e0c0ea61d414209f30fe172b9a8420c9e1d50cbe575420e2eff80936b49420e74ed542582c1420d6812dac5f73b420b2af5ad82b6b64208035fba83425242044cc4ae17c0c1420067b43790209041f954c064ea747441f2aaf9366636b541ea3ca3f6ea0fb141e18f167ccabf6541d6595011beeb5641cb0021c3c784b741bee5acb3e767e341b0b3ac5e07e5d541a10221f0752d8941904196a907e54d417d0a286547285141681cda3d9c545741527e5c9bb394ef4139fe72a096dd3c412091e9a7dca85c4102e8d947ec3e8d40e2f9becca8561540c054e1a911116740973b9c7d3010e04069b83a7a4bfb8d4033cc8a99af54523ff00000000000004032b5524ae1278d4064742e8b6df2e9408b7be86c3d7dd940a902c5d8a25ddd40bfd5663cbe4de040cbd2a29821d81440cdbe6ad0a6791b,
  0x40e2672e28db0769410d82b2060924b8413087d529fb5070414ddf22d338cc30416714957b876d8e417f7d90e6705f4e41935a2099a0a07841a5b8fe80b9c7fd41b67de38200000041c5a487eec61db541d37787a93c4e9441e0715a87ce23ac41ea2e3e8daec21a41f3b43a7c33c30741fc1b8f2371e0d34203098662c7c25e42088736858d1b1d420e197f9825fcdb42119bcac6b26bb24213a8e127c05a0d4214f55b8a915969421557d00ea3970a4214c45b9c8a6a4b42134eed421c065e421126fb3c149d16420d1bbe1555317a420794f54009baef42023a9368eff0ea41fade1e206bdd5641f2db7e029ff06541e92d9703f6c5a041dfed4dd035503241d3307d25a30f5741c5d1d899c77dd441b7687bc3e86df041a79eb7163b86f9419655d6eb76b75b4183b49b694bb6c94170224c627779b641585b85cd3830ec4140d02f4fded3d84125019b1a71314841076ef87267556040e6ebfeacc2b5cd40c32b105447b7ac409a65532d989896406c2997f6ba58524034c8dc2e42397f3ff00000000000004033cc8a99af54524067267ba1bec03f4090dfa12e5de85540b1013ef44fe2d540c8c26bf65b202040da42e956aa7c2840e3ac76aeb0c32540e2672e28db0769,
  0x40f540009ffffda54120aed628f512d141424ae533b38bd141602b22406d5cec41786e175de7960541904984fba54dfa41a38d7781af20c441b56cd88952082041c5a487eec61db541d44e180e40000041e1cba23af0de2441ed4556448dae2041f6ac5059b7454842009715af8459e64206fd572b51286d420e39c294b533db4212e1bd8afea3f74216725478765b3542196a6ffc94fe85421b6e30fab27f31421c3bf1e0e98a0a421bb9b37025100d4219fa5e38c083f14217396aba1102ff4213ce44c0fe80c642101b0125b197104208f5f8dc05730d42026aef770ba1bd41f9da78c98f819d41f13cfe65554a7441e5ce0b6ade81ee41da1d0cf38278e841cd8b457865cb8141bf7e797039349d41af88c721787398419d8bfd9fa1057c4189ca647348f4774174db97cc790ae1415f0cc34f9d69bb4145181efbef775e4129e2b9dce7cb58410c4c71f3f0da3340eb0f03b3b8589d40c60e7b0bfd5bb9409d82eb3ed3efdc406e7aafccab84864035adf29f948cfa3ff00000000000004034c8dc2e42397f4069b83a7a4bfb8d40940c7c1a6f196140b5eb5d0c69fc5040d1ac069ee446ec40e5713bf6e7855240f37e77b095a8a840f98e8ee225bac840f540009ffffda5,
  0x410708d276fd683a4131b2fa1dabdaba4152fc21b7d60e8141706853ff0ffa8f41883a505f9f61d1419f8dacc257729e41b27d244f86271f41c3c3f103c173c641d37787a93c4e9441e1cba23af0de2441ee5f057aa0000041f84d8db20562a842024d53fe569670420a04b74676085042117f4373c972bc42164ea8fde9e0d4421affe0dd568e3f421f0fc0ca1b40324220ffbbe17717324221b6bbc38a5c87422194e73590aacc4220a01a578eec4e421df4f710518f894219b5cc95fff6074215031a6731602b421057f5d88b154642082db23508f1e24200fdacd0b7d85341f6a8759fb3e96641eca006245cd29a41e1192b362dd6e941d345bbf700a9f341c47103f185ad7841b45684da1fb12941a2e8cd9d246da941905acf7cadd5e6417a2c011b63e85a41633df0ef067f784149c7af05ef3aab412f22d9294992514110b75a648e8ace40ef53df3f43469a40c8f66313a9f0f540a0473e62b0716c407055ca01daed8640367e93ddbc0e723ff00000000000004035adf29f948cfa406c2997f6ba585240973b9c7d3010e040bb2a59e55ae7cd40d7c292b3e5b30c40efed364309cc6a41009a226642c2d7410a69ec2129d166410ec7f5c44c44be410708d276fd683a,
  0x41178d59fe08858a4141b4189fe08a564162914d762acdf4417f5d46c906313541969e41985f298741acc17a27f4ddb241c07046c20f860641d1225da455452741e0715a87ce23ac41ed4556448dae2041f84d8db20562a84202e82e6a300000420ba9ccd73a9c83421315bb4436f0034218e414e4ca61f0421ebdf6cc6d87604222010e9df20cbc422405ba9704d8a0422528d42857e627422543063643ed2d422452540de3f46b42227a2bdadd38f9421ff63fff5ec902421a49b925c75b2242148cdddce20c05420e83fd08e62e8142057f4fa572757641fcb3eeb23b2c7c41f22183865a2b1e41e5a218ca6e2ce141d852d82b7dc7a241c9b3efebe8838041b971ce34c940f441a781e871ebbc0741942ccc7ea4cfe7417ffd90198d805d41674507cbbe655d414ecb73de1520e74132564482b282a1411360dd2e6c5b4340f1d5c552b6b18c40cbda8937c499bb40a1c165cddb45ff40715e286b9b117440373ce704fb7b233ff000000000000040367e93ddbc0e72406e7aafccab8486409a65532d98989640c054e1a911116740de8db68a4aae1f40f645010a5f71444109a623430b3d8d4117574689b142634120812869099aa041214f620869c5d741178d59fe08858a,
  0x4126cde4ff291b284150c2ab07773e5f41712dd0dc57e357418c5806a6675fd741a3f40bab069aa641b8bfc032d8c53b41cb96b84c08c66941dc04d8cfaf399e41ea2e3e8daec21a41f6ac5059b7454842024d53fe569670420ba9ccd73a9c834213a4691bd40000421a47f2f684964642209a44306073634223d80a3a762c0d422677ecc58b68ea4228202290255b74422895c947b5f5d94227c9fe02c304c94225dcd06d6b08a34223154cc7975ea0421fa27bc50b86a04218e339d56372c4421292398936f5dd420a437d36f7bf85420193abd80d97f141f63baf188ca7a441ea871fd2cfea1041ddca4bb6f6793641cf66d2527c54d041bef85a00151c7541ac780c6a8a47e641984744c5e65ddb418319aa89d168be416b887417a24be44152064bc331c0a3413533ff1eaa25344116184155535cad40f4038eec91085b40ceb32dfe7f4ef640a32d97327fa524407256776e8046614037eaa126f152833ff000000000000040373ce704fb7b23407055ca01daed86409d82eb3ed3efdc40c32b105447b7ac40e2f9becca8561540fd955751e0af3941127b67e36ccbcb4122a03a059aab89412e220c2c3adea941332d3096b574d8413248ba93c7e6f34126cde4ff291b28,
  0x4134fa14f81d9053415e224782bdd4fd417e2b0a641c5fe841984b7d144d5ba541b0af8ff300d89c41c42dc3f3d9c78441d5ead6001b410341e5ac5e445d2f4141f3b43a7c33c30742009715af8459e6420a04b746760850421315bb4436f003421a47f2f68496464221084cd25000004224d3607e7a6fb742280fce9d9f9833422a4e0070eddf25422b3c675f854b15422aba11272d49904228dde2598ac6364225f0596f756cb342225a16443dbe85421d198574891e604215da47f640a970420f0f5d6b857f314204dd57422729e241fa7510c1dcf79c41ef9b5ce7c355ef41e1bf380052049241d2af125914e35941c261ae22a4a2e041b0d5836f8f51ba419c917c9e71ecf74186553732c7f21b416ff1e3765e17d44154b8caa78ee57941381dde76030ce74118d2c4296be81140f62bff745d158e40d0bc88e15e68da40a489bdaf8a0a2c40733eba23c5963040388922de324cbe3ff00000000000004037eaa126f1528340715e286b9b117440a0473e62b0716c40c60e7b0bfd5bb940e6ebfeacc2b5cd4102e8d947ec3e8d411944db33248f8a412ba06c4d0bb5694138bf859e6fa76041420454609eee1a4144d8da1aa7982c41423872ae4f0faa4134fa14f81d9053,
  0x414261aa91678ed24169ca9f22d582f2418934bc8d2038d341a3cdbfa572863741ba85bd4a02139b41cf408db1cd2e5a41e086975343b9e241efccd889dc94fe41fc1b8f2371e0d34206fd572b51286d42117f4373c972bc4218e414e4ca61f042209a44306073634224d3607e7a6fb742289d6e2bb00000422b758a33971ecb422cf259b110b850422cdc85e77f92d4422b3b8bbab4e686422852e5cdc772ad422490d2787a975f4220748dd76967004218e8042998f2664211d01e15ba26fa42080d65370731f241fe9d15b7f4b35841f254d798b6cde541e49c782584a50d41d5b3087eb6f4df41c5526aa265e88941b37a84f746fc2141a0776c7815019341899da90a75374c41723453858bcd6541576f815f56879a413b06a11987ef6e411b859653847cf440f84805c1ba20de40d212ba61d932a940a5d3fcb3957744407416f2d5861d2e4039198c8b8307c83ff000000000000040388922de324cbe407256776e80466140a1c165cddb45ff40c8f66313a9f0f540eb0f03b3b8589d41076ef872675560412091e9a7dca85c41335feeb96caf674142d4301fc1d599414e5c51d058f58f415417f0a7de58ba41554ff8ebe0f7da415131bf6c8e574c414261aa91678ed2,
  0x414ec215f3cd50b24175109f495c5423419415a9dda32cbb41aec55c757ffb7d41c413af25b57e3941d708de7d1cfb7141e7b3d4079a299341f62beeffbf77cf4203098662c7c25e420e39c294b533db42164ea8fde9e0d4421ebdf6cc6d87604223d80a3a762c0d42280fce9d9f9833422b758a33971ecb422d89b767a00000422dfc1efd4f962b422cbf2526b6e5dc422a0a12a3adec04422649f7ab0c4d5e4222069f2cb127fa421b88f381a3f44a4213d88807861934420af7d180723d6f42013fb272c593dd41f4bc0722bae0b641e75ef42ee37ad741d8a2964b90371b41c834e6216e65fe41b6162e78b6430f41a2a00646b73f91418cdda561bd72ed41746944d0f0c99a415a1c2fb2fa2372413de0d51d5c7ccc411e260dd91480a040fa50deb35978c340d3590b972ae3f640a70aaa0ca7437a4074df233d5b3b0940399ccc999fff003ff00000000000004039198c8b8307c840733eba23c5963040a32d97327fa52440cbda8937c499bb40ef53df3f43469a410c4c71f3f0da334125019b1a7131484139fe72a096dd3c414b044ba2bcdbaf4157a149b482859d416151b847f6efae416503a949fffceb41649311e9497efe415ed3a46b5b6865414ec215f3cd50b2,
  0x41589e57fa72a49f418072ee346b54a2419e952e5efd6f1c41b6d3a058cb6fe741cd00d34412359d41e030368983920041f031e7d497934a41fd6eabd106277842088736858d1b1d4212e1bd8afea3f7421affe0dd568e3f4222010e9df20cbc422677ecc58b68ea422a4e0070eddf25422cf259b110b850422dfc1efd4f962b422d448dec240000422aefd50f82766642276220a9b774d24223252c57b92b7b421d8f2b7afa3aa14215804e5e778569420d71bbee8958d24202f3e0f814565c41f6e5bc76a5541b41e9e7cc25ae027f41db5fda625f25ef41caee76c9a2baf141b892a7962086fd41a4b23573dba293418fff0b281c098d41768a5816684339415cb072f0ce3c9d41404f93fdf7abec412054ea0f72657a40fc40252f56893540d48c9c919fc92840a82c492423a0a74075974cad705597403a13a9cb9966503ff000000000000040399ccc999fff00407416f2d5861d2e40a489bdaf8a0a2c40ceb32dfe7f4ef640f1d5c552b6b18c4110b75a648e8ace4129e2b9dce7cb584140d02f4fded3d841527e5c9bb394ef41614c9703f559a0416b829b8e87769841727b9c1e4523fc4174b37ba68cf6954172d1f526c35811416a517d20abba9d41589e57fa72a49f,
  0x4162e1ad4bdf0d8f418899ca6b0ab2fb41a64878f1511b8941c031b7b20abf0a41d4051f779952e941e5ba50e7900bec41f51d997b2cbbfb42029f88ae459544420e197f9825fcdb4216725478765b35421f0fc0ca1b4032422405ba9704d8a04228202290255b74422b3c675f854b15422cdc85e77f92d4422cbf2526b6e5dc422aefd50f8276664227c230f2e400004223ba43eb3a8d35421ed5f5979251694216abc11c294f95420f550f25ae7c234204530f727f334041f8b61372bca38741ec1931bca787fa41ddcd88e12c147c41cd64b06a85bbe941bada280157fd5b41a69da77bdfbd11419175e50c39370741788a3e5fc0c83a415f1e2c6452183d41419a5922ddb4b241218387f56f80cd40fe0fe02fef2ae440d5aacd5d398cf740a9378722149a8b40763f702c34e466403a7ecad724e9853ff0000000000000403a13a9cb9966504074df233d5b3b0940a5d3fcb395774440d0bc88e15e68da40f4038eec91085b411360dd2e6c5b43412f22d9294992514145181efbef775e41585b85cd3830ec41681cda3d9c54574174813ff38bb2c8417de407e14b865941828996897a56f04183477c6e1bc07241805be61713d08041757261b2a6ddad4162e1ad4bdf0d8f,
  0x416bcafad47feb164191a4337853cbab41af1e273772f6f541c600ebc2c1c13541da723c480ba6c441ebe1d3ba4bbdfe41fa4cb32821df0f42067e0c0ea61d4142119bcac6b26bb242196a6ffc94fe854220ffbbe1771732422528d42857e627422895c947b5f5d9422aba11272d4990422b3b8bbab4e686422a0a12a3adec0442276220a9b774d24223ba43eb3a8d35421f459e83880000421746c4130f3ac6421041ec596ada364205493c9535a74741fa14d02b62dc3a41edd8652e6134dd41dfd0b04e0c4d6041cf7ed49815419e41bcd807407b692e41a852c2694ecc894192c75c769b18a8417a5c365156a8b24160abf1b21768ee4142ca9f1699923c41229a45b2a81c1440ffba8f110d7d4940d6b13e02ee1edc40aa2b37c5fcbd2a4076d78e877aaaef403adebc19b717023ff0000000000000403a7ecad724e9854075974cad70559740a70aaa0ca7437a40d212ba61d932a940f62bff745d158e4116184155535cad4132564482b282a14149c7af05ef3aab415f0cc34f9d69bb4170224c627779b6417d0a28654728514186a303cf40473a418e75cbfe2367c741918a8f81d32f9d419106e73c08a413418b16f8fda773934180b6819a6a5528416bcafad47feb16,
  0x4173a70ceb7a6b7741984acc1428331d41b4d8739015df7641cca93f116326d441e0bb5af2aa30e141f11f19917ca2fb41ff5215a596e0cc4209f30fe172b9a84213a8e127c05a0d421b6e30fab27f314221b6bbc38a5c87422543063643ed2d4227c9fe02c304c94228dde2598ac636422852e5cdc772ad422649f7ab0c4d5e4223252c57b92b7b421ed5f597925169421746c4130f3ac64210757bd97000004205c81119eb152441faef2f9f22c65441ef0f87378b69c741e0a930e64b367c41d09398500b300241be79c122573ca441a9c35267f06cca4193ea311883689b417bf4755344e4cf4161a8906b7d58f94143dac40fa5878b412394eb0ce6da3041009d9a2426c75d40d79dce897e76a240ab0652d0a7f58840775fa861ece6f5403b33f3f1490dee3ff0000000000000403adebc19b7170240763f702c34e46640a82c492423a0a740d3590b972ae3f640f84805c1ba20de4118d2c4296be811413533ff1eaa2534414ecb73de1520e741633df0ef067f784174db97cc790ae14183b49b694bb6c941904196a907e54d419764f0170b6d69419d3b1db96546c7419f6c1bad3ba9e2419c983fb669a4a9419568ae0999ec6b4188f2df6ea5d3a24173a70ceb7a6b77,
  0x417abaf7eccc416b41a012ef80c1a1ba41bad203d383650441d1e9487efd958c41e44c27ec2abf9641f42407d4c7f4ce4201d8a294b0de32420c9e1d50cbe5754214f55b8a915969421c3bf1e0e98a0a422194e73590aacc422452540de3f46b4225dcd06d6b08a34225f0596f756cb3422490d2787a975f4222069f2cb127fa421d8f2b7afa3aa14216abc11c294f95421041ec596ada364205c81119eb152441fb395476e0000041efaf1b45fc78b241e1208f520bc58941d12629c2302e8441bfafe0c3f9062441aae3281ef0eff44194d5dff3585394417d4887c0d6768341627f612764548e4144c5bc5b646d4a41246fb17becb410410146af54679cd840d86e9ef609e4a440abc7f1e3c3f9c74077d7be3cb5c03c403b7ed6159fadc73ff0000000000000403b33f3f1490dee4076d78e877aaaef40a9378722149a8b40d48c9c919fc92840fa50deb35978c3411b859653847cf441381dde76030ce74152064bc331c0a341674507cbbe655d417a2c011b63e85a4189ca647348f477419655d6eb76b75b41a10221f0752d8941a6ba7453682b9a41aa816cf020a29541aab63b302686a841a6e0d512126d4541a02d67e52aaeb54191dc268f100907417abaf7eccc416b,
  0x41817fc64051617241a4760e7bd064e041c09525b7f731fe41d57f3fe11924ac41e79f6f8815f81941f6b536aef08a17420378ca1f86942a420e2eff80936b49421557d00ea3970a421bb9b37025100d4220a01a578eec4e42227a2bdadd38f94223154cc7975ea042225a16443dbe854220748dd7696700421b88f381a3f44a4215804e5e778569420f550f25ae7c234205493c9535a74741faef2f9f22c65441efaf1b45fc78b241e148f8ad00000041d1710466f4798a41c03762cb2c194c41aba8a0aaa0ed784195836f8ed032f9417e4fa56360a8c741632ba18dc46fa74145872bb9be21cd4125275129ac9e844101d698a6c4f2ec40d9220f4c749e9640ac6f4ec2c3fa7340783fd07e7fa749403bbfb6325af96a3ff0000000000000403b7ed6159fadc740775fa861ece6f540aa2b37c5fcbd2a40d5aacd5d398cf740fc40252f568935411e260dd91480a0413b06a11987ef6e4154b8caa78ee579416b887417a24be4417ffd90198d805d41905acf7cadd5e6419d8bfd9fa1057c41a79eb7163b86f941b0b3ac5e07e5d541b4d4b39831143841b6c642dafec20c41b59a020d8dedd241b1793ac4a8499d41a7692630e482d041988daafafa12a741817fc640516172,
  0x418612652e4dd64041a9120f3bce979e41c3b87cfa97c31941d8ca58db1df4b841ea63f7d394ef5441f88ccf6fda66314204598a80b47486420e74ed542582c14214c45b9c8a6a4b4219fa5e38c083f1421df4f710518f89421ff63fff5ec902421fa27bc50b86a0421d198574891e604218e8042998f2664213d88807861934420d71bbee8958d24204530f727f334041fa14d02b62dc3a41ef0f87378b69c741e1208f520bc58941d1710466f4798a41c0579bfc00000041ac0d112a79dd5c4195edb2c6e4afc3417f02f7e4fe81004163a97cfa1ebd4341461b7adbb4c4384125b90bf276e42641024bb51fc1bcdf40d9b6bf8fafe24340acfbc1e584e27e407897df7898d74f403bf6d9ef178c073ff0000000000000403bbfb6325af96a4077d7be3cb5c03c40ab0652d0a7f58840d6b13e02ee1edc40fe0fe02fef2ae4412054ea0f72657a413de0d51d5c7ccc41576f815f56879a416ff1e3765e17d4418319aa89d168be41942ccc7ea4cfe741a2e8cd9d246da941af88c72178739841b7687bc3e86df041bee5acb3e767e341c21043b2e2d0cb41c296543040cca441c0a68aa16cc88c41b985011dcc037241b03d9419aa283341a038dcae3a621b418612652e4dd640,
  0x418ad5f667b999f141ad95cee62a9e3841c691130027cf7d41db7b4acbb2c01c41ec4fc9aa09b10b41f975961c321b7042046032d6c32e62420d6812dac5f73b42134eed421c065e4217396aba1102ff4219b5cc95fff607421a49b925c75b224218e339d56372c44215da47f640a9704211d01e15ba26fa420af7d180723d6f4202f3e0f814565c41f8b61372bca38741edd8652e6134dd41e0a930e64b367c41d12629c2302e8441c03762cb2c194c41ac0d112a79dd5c4196117a40000000417f5dd15641acb64163f6250b82d07f41467fe8d1940eef412622b6651866804102a4b3f473e1dd40da2b8fc1eced3440ad6cc150dbc8fd4078dfeb6abd9840403c247a85fe81fa3ff0000000000000403bf6d9ef178c0740783fd07e7fa74940abc7f1e3c3f9c740d79dce897e76a240ffba8f110d7d4941218387f56f80cd41404f93fdf7abec415a1c2fb2fa237241723453858bcd654186553732c7f21b41984744c5e65ddb41a781e871ebbc0741b45684da1fb12941bf7e797039349d41c5d1d899c77dd441cb0021c3c784b741cdb6b6ea975cb341cce065d225477641c8819f6b44f2b641c1d7442b7723f141b5a05ce02626d841a49eb6fd828d4e418ad5f667b999f1,
  0x418f77bec016f88a41b0d1fa1573b32141c8dba944c5edd041dd4ba58b09dacf41ed2ca0f7a7f40e41f95495f1a3ca4942038c700fd760a3420b2af5ad82b6b6421126fb3c149d164213ce44c0fe80c64215031a6731602b42148cdddce20c05421292398936f5dd420f0f5d6b857f3142080d65370731f242013fb272c593dd41f6e5bc76a5541b41ec1931bca787fa41dfd0b04e0c4d6041d09398500b300241bfafe0c3f9062441aba8a0aaa0ed784195edb2c6e4afc3417f5dd15641acb641640fe3800000004146b2984055e920412662bec2f096704102e096b1259d2c40da7f9fe4c0d25f40adc1dfac0de4d8407917f485e33bc2403c48c6001f0abf3ff0000000000000403c247a85fe81fa407897df7898d74f40ac6f4ec2c3fa7340d86e9ef609e4a441009d9a2426c75d41229a45b2a81c1441419a5922ddb4b2415cb072f0ce3c9d41746944d0f0c99a41899da90a75374c419c917c9e71ecf741ac780c6a8a47e641b971ce34c940f441c47103f185ad7841cd8b457865cb8141d3307d25a30f5741d6595011beeb5641d73a7138f312ac41d562c0169dee8f41d13de284cec18641c7e8adeadded3541bbaa239afd4edb41a93af7202d8cb2418f77bec016f88a,
  0x4191cd04817a4cfb41b26f6adeb2254f41ca5dae96bc11ba41de096c886f2a0641ece190b60fe38341f82e25ca8a81234201f845fefe8ad24208035fba834252420d1bbe1555317a42101b0125b19710421057f5d88b1546420e83fd08e62e81420a437d36f7bf854204dd57422729e241fe9d15b7f4b35841f4bc0722bae0b641e9e7cc25ae027f41ddcd88e12c147c41cf7ed49815419e41be79c122573ca441aae3281ef0eff44195836f8ed032f9417f02f7e4fe81004163f6250b82d07f4146b2984055e92041267832000000004102feb2d21a17fd40dab24ff93d237740adfacb8c698ca240793ffaee416461403c63e02881cc543ff0000000000000403c48c6001f0abf4078dfeb6abd984040acfbc1e584e27e40d9220f4c749e96410146af54679cd8412394eb0ce6da304142ca9f1699923c415f1e2c6452183d41768a5816684339418cdda561bd72ed41a0776c7815019341b0d5836f8f51ba41bef85a00151c7541c9b3efebe8838041d345bbf700a9f341da1d0cf38278e841dfed4dd035503241e18f167ccabf6541e14a12c54a0a2541de3e775823cb0041d738ede8eab9f141cebd0b1dfd024841c102a22fb3243641adbbf6b1826dba4191cd04817a4cfb,
  0x41936fefe38e473141b37b081d7962fd41caeeacc1834a8941dd9fc161825ff441eb7789028b041141f6250141d6d17f41ffa5e2d1a676e342044cc4ae17c0c1420794f54009baef4208f5f8dc05730d42082db23508f1e242057f4fa5727576420193abd80d97f141fa7510c1dcf79c41f254d798b6cde541e75ef42ee37ad741db5fda625f25ef41cd64b06a85bbe941bcd807407b692e41a9c35267f06cca4194d5dff3585394417e4fa56360a8c74163a97cfa1ebd4341467fe8d1940eef412662bec2f096704102feb2d21a17fd40dac3400000000040ae174ef200b99f407957febcc3ad73403c75e34235a6bc3ff0000000000000403c63e02881cc54407917f485e33bc240ad6cc150dbc8fd40d9b6bf8fafe2434101d698a6c4f2ec41246fb17becb4104143dac40fa5878b4160abf1b21768ee41788a3e5fc0c83a418fff0b281c098d41a2a00646b73f9141b37a84f746fc2141c261ae22a4a2e041cf66d2527c54d041d852d82b7dc7a241e1192b362dd6e941e5ce0b6ade81ee41e92d9703f6c5a041ea3ca3f6ea0fb141e88ad784f538b041e47190690f5e0f41ddf7b2dcb560ae41d2f89795758a6041c41f319f4a8d0541b0e218198b55ca41936fefe38e4731,
  0x41947d19241e6add41b3d991092201e941ca7f1df5f758bc41dc1a95031f868f41e917a314cf12aa41f373b6957596c441fab01c34228051420067b43790209042023a9368eff0ea42026aef770ba1bd4200fdacd0b7d85341fcb3eeb23b2c7c41f63baf188ca7a441ef9b5ce7c355ef41e49c782584a50d41d8a2964b90371b41caee76c9a2baf141bada280157fd5b41a852c2694ecc894193ea311883689b417d4887c0d6768341632ba18dc46fa741461b7adbb4c438412622b6651866804102e096b1259d2c40dab24ff93d237740ae174ef200b99f4079600000000000403c7ee08a0e6d4c3ff0000000000000403c75e34235a6bc40793ffaee41646140adc1dfac0de4d840da2b8fc1eced3441024bb51fc1bcdf4125275129ac9e844144c5bc5b646d4a4161a8906b7d58f9417a5c365156a8b2419175e50c39370741a4b23573dba29341b6162e78b6430f41c5526aa265e88941d2af125914e35941ddca4bb6f6793641e5a218ca6e2ce141eca006245cd29a41f13cfe65554a7441f2db7e029ff06541f2aaf9366636b541f0a172adbab39641ea72729132290b41e28a87a2ec3db641d67f35b4f1830b41c6e838cc72d81041b27b1d1a287d5e41947d19241e6add,
  0x4194d9f0630f7a8f41b3812f4aac53d141c91b199c34c65f41d9a47d1b4ad77541e603a2fdc4975e41f0621694716cb541f58a7b421a0f1541f954c064ea747441fade1e206bdd5641f9da78c98f819d41f6a8759fb3e96641f22183865a2b1e41ea871fd2cfea1041e1bf380052049241d5b3087eb6f4df41c834e6216e65fe41b892a7962086fd41a69da77bdfbd114192c75c769b18a8417bf4755344e4cf41627f612764548e4145872bb9be21cd4125b90bf276e4264102a4b3f473e1dd40da7f9fe4c0d25f40adfacb8c698ca2407957febcc3ad73403c7ee08a0e6d4c3ff0000000000000403c7ee08a0e6d4c407957febcc3ad7340adfacb8c698ca240da7f9fe4c0d25f4102a4b3f473e1dd4125b90bf276e4264145872bb9be21cd41627f612764548e417bf4755344e4cf4192c75c769b18a841a69da77bdfbd1141b892a7962086fd41c834e6216e65fe41d5b3087eb6f4df41e1bf380052049241ea871fd2cfea1041f22183865a2b1e41f6a8759fb3e96641f9da78c98f819d41fade1e206bdd5641f954c064ea747441f58a7b421a0f1541f0621694716cb541e603a2fdc4975e41d9a47d1b4ad77541c91b199c34c65f41b3812f4aac53d14194d9f0630f7a8f,
  0x41947d19241e6add41b27b1d1a287d5e41c6e838cc72d81041d67f35b4f1830b41e28a87a2ec3db641ea72729132290b41f0a172adbab39641f2aaf9366636b541f2db7e029ff06541f13cfe65554a7441eca006245cd29a41e5a218ca6e2ce141ddca4bb6f6793641d2af125914e35941c5526aa265e88941b6162e78b6430f41a4b23573dba293419175e50c393707417a5c365156a8b24161a8906b7d58f94144c5bc5b646d4a4125275129ac9e8441024bb51fc1bcdf40da2b8fc1eced3440adc1dfac0de4d840793ffaee416461403c75e34235a6bc3ff0000000000000403c7ee08a0e6d4c407960000000000040ae174ef200b99f40dab24ff93d23774102e096b1259d2c412622b66518668041461b7adbb4c43841632ba18dc46fa7417d4887c0d676834193ea311883689b41a852c2694ecc8941bada280157fd5b41caee76c9a2baf141d8a2964b90371b41e49c782584a50d41ef9b5ce7c355ef41f63baf188ca7a441fcb3eeb23b2c7c4200fdacd0b7d85342026aef770ba1bd42023a9368eff0ea420067b43790209041fab01c3422805141f373b6957596c441e917a314cf12aa41dc1a95031f868f41ca7f1df5f758bc41b3d991092201e941947d19241e6add,
  0x41936fefe38e473141b0e218198b55ca41c41f319f4a8d0541d2f89795758a6041ddf7b2dcb560ae41e47190690f5e0f41e88ad784f538b041ea3ca3f6ea0fb141e92d9703f6c5a041e5ce0b6ade81ee41e1192b362dd6e941d852d82b7dc7a241cf66d2527c54d041c261ae22a4a2e041b37a84f746fc2141a2a00646b73f91418fff0b281c098d41788a3e5fc0c83a4160abf1b21768ee4143dac40fa5878b41246fb17becb4104101d698a6c4f2ec40d9b6bf8fafe24340ad6cc150dbc8fd407917f485e33bc2403c63e02881cc543ff0000000000000403c75e34235a6bc407957febcc3ad7340ae174ef200b99f40dac340000000004102feb2d21a17fd412662bec2f0967041467fe8d1940eef4163a97cfa1ebd43417e4fa56360a8c74194d5dff358539441a9c35267f06cca41bcd807407b692e41cd64b06a85bbe941db5fda625f25ef41e75ef42ee37ad741f254d798b6cde541fa7510c1dcf79c420193abd80d97f142057f4fa572757642082db23508f1e24208f5f8dc05730d420794f54009baef42044cc4ae17c0c141ffa5e2d1a676e341f6250141d6d17f41eb7789028b041141dd9fc161825ff441caeeacc1834a8941b37b081d7962fd41936fefe38e4731,
  0x4191cd04817a4cfb41adbbf6b1826dba41c102a22fb3243641cebd0b1dfd024841d738ede8eab9f141de3e775823cb0041e14a12c54a0a2541e18f167ccabf6541dfed4dd035503241da1d0cf38278e841d345bbf700a9f341c9b3efebe8838041bef85a00151c7541b0d5836f8f51ba41a0776c78150193418cdda561bd72ed41768a5816684339415f1e2c6452183d4142ca9f1699923c412394eb0ce6da30410146af54679cd840d9220f4c749e9640acfbc1e584e27e4078dfeb6abd9840403c48c6001f0abf3ff0000000000000403c63e02881cc5440793ffaee41646140adfacb8c698ca240dab24ff93d23774102feb2d21a17fd41267832000000004146b2984055e9204163f6250b82d07f417f02f7e4fe81004195836f8ed032f941aae3281ef0eff441be79c122573ca441cf7ed49815419e41ddcd88e12c147c41e9e7cc25ae027f41f4bc0722bae0b641fe9d15b7f4b3584204dd57422729e2420a437d36f7bf85420e83fd08e62e81421057f5d88b154642101b0125b19710420d1bbe1555317a4208035fba8342524201f845fefe8ad241f82e25ca8a812341ece190b60fe38341de096c886f2a0641ca5dae96bc11ba41b26f6adeb2254f4191cd04817a4cfb,
  0x418f77bec016f88a41a93af7202d8cb241bbaa239afd4edb41c7e8adeadded3541d13de284cec18641d562c0169dee8f41d73a7138f312ac41d6595011beeb5641d3307d25a30f5741cd8b457865cb8141c47103f185ad7841b971ce34c940f441ac780c6a8a47e6419c917c9e71ecf741899da90a75374c41746944d0f0c99a415cb072f0ce3c9d41419a5922ddb4b241229a45b2a81c1441009d9a2426c75d40d86e9ef609e4a440ac6f4ec2c3fa73407897df7898d74f403c247a85fe81fa3ff0000000000000403c48c6001f0abf407917f485e33bc240adc1dfac0de4d840da7f9fe4c0d25f4102e096b1259d2c412662bec2f096704146b2984055e92041640fe380000000417f5dd15641acb64195edb2c6e4afc341aba8a0aaa0ed7841bfafe0c3f9062441d09398500b300241dfd0b04e0c4d6041ec1931bca787fa41f6e5bc76a5541b42013fb272c593dd42080d65370731f2420f0f5d6b857f31421292398936f5dd42148cdddce20c054215031a6731602b4213ce44c0fe80c6421126fb3c149d16420b2af5ad82b6b642038c700fd760a341f95495f1a3ca4941ed2ca0f7a7f40e41dd4ba58b09dacf41c8dba944c5edd041b0d1fa1573b321418f77bec016f88a,
  0x418ad5f667b999f141a49eb6fd828d4e41b5a05ce02626d841c1d7442b7723f141c8819f6b44f2b641cce065d225477641cdb6b6ea975cb341cb0021c3c784b741c5d1d899c77dd441bf7e797039349d41b45684da1fb12941a781e871ebbc0741984744c5e65ddb4186553732c7f21b41723453858bcd65415a1c2fb2fa237241404f93fdf7abec41218387f56f80cd40ffba8f110d7d4940d79dce897e76a240abc7f1e3c3f9c740783fd07e7fa749403bf6d9ef178c073ff0000000000000403c247a85fe81fa4078dfeb6abd984040ad6cc150dbc8fd40da2b8fc1eced344102a4b3f473e1dd412622b66518668041467fe8d1940eef4163f6250b82d07f417f5dd15641acb64196117a4000000041ac0d112a79dd5c41c03762cb2c194c41d12629c2302e8441e0a930e64b367c41edd8652e6134dd41f8b61372bca3874202f3e0f814565c420af7d180723d6f4211d01e15ba26fa4215da47f640a9704218e339d56372c4421a49b925c75b224219b5cc95fff6074217396aba1102ff42134eed421c065e420d6812dac5f73b42046032d6c32e6241f975961c321b7041ec4fc9aa09b10b41db7b4acbb2c01c41c691130027cf7d41ad95cee62a9e38418ad5f667b999f1,
  0x418612652e4dd64041a038dcae3a621b41b03d9419aa283341b985011dcc037241c0a68aa16cc88c41c296543040cca441c21043b2e2d0cb41bee5acb3e767e341b7687bc3e86df041af88c72178739841a2e8cd9d246da941942ccc7ea4cfe7418319aa89d168be416ff1e3765e17d441576f815f56879a413de0d51d5c7ccc412054ea0f72657a40fe0fe02fef2ae440d6b13e02ee1edc40ab0652d0a7f5884077d7be3cb5c03c403bbfb6325af96a3ff0000000000000403bf6d9ef178c07407897df7898d74f40acfbc1e584e27e40d9b6bf8fafe24341024bb51fc1bcdf4125b90bf276e42641461b7adbb4c4384163a97cfa1ebd43417f02f7e4fe81004195edb2c6e4afc341ac0d112a79dd5c41c0579bfc00000041d1710466f4798a41e1208f520bc58941ef0f87378b69c741fa14d02b62dc3a4204530f727f3340420d71bbee8958d24213d888078619344218e8042998f266421d198574891e60421fa27bc50b86a0421ff63fff5ec902421df4f710518f894219fa5e38c083f14214c45b9c8a6a4b420e74ed542582c14204598a80b4748641f88ccf6fda663141ea63f7d394ef5441d8ca58db1df4b841c3b87cfa97c31941a9120f3bce979e418612652e4dd640,
  0x41817fc64051617241988daafafa12a741a7692630e482d041b1793ac4a8499d41b59a020d8dedd241b6c642dafec20c41b4d4b39831143841b0b3ac5e07e5d541a79eb7163b86f9419d8bfd9fa1057c41905acf7cadd5e6417ffd90198d805d416b887417a24be44154b8caa78ee579413b06a11987ef6e411e260dd91480a040fc40252f56893540d5aacd5d398cf740aa2b37c5fcbd2a40775fa861ece6f5403b7ed6159fadc73ff0000000000000403bbfb6325af96a40783fd07e7fa74940ac6f4ec2c3fa7340d9220f4c749e964101d698a6c4f2ec4125275129ac9e844145872bb9be21cd41632ba18dc46fa7417e4fa56360a8c74195836f8ed032f941aba8a0aaa0ed7841c03762cb2c194c41d1710466f4798a41e148f8ad00000041efaf1b45fc78b241faef2f9f22c6544205493c9535a747420f550f25ae7c234215804e5e778569421b88f381a3f44a4220748dd769670042225a16443dbe854223154cc7975ea042227a2bdadd38f94220a01a578eec4e421bb9b37025100d421557d00ea3970a420e2eff80936b49420378ca1f86942a41f6b536aef08a1741e79f6f8815f81941d57f3fe11924ac41c09525b7f731fe41a4760e7bd064e041817fc640516172,
  0x417abaf7eccc416b4191dc268f10090741a02d67e52aaeb541a6e0d512126d4541aab63b302686a841aa816cf020a29541a6ba7453682b9a41a10221f0752d89419655d6eb76b75b4189ca647348f477417a2c011b63e85a41674507cbbe655d4152064bc331c0a341381dde76030ce7411b859653847cf440fa50deb35978c340d48c9c919fc92840a9378722149a8b4076d78e877aaaef403b33f3f1490dee3ff0000000000000403b7ed6159fadc74077d7be3cb5c03c40abc7f1e3c3f9c740d86e9ef609e4a4410146af54679cd841246fb17becb4104144c5bc5b646d4a41627f612764548e417d4887c0d676834194d5dff358539441aae3281ef0eff441bfafe0c3f9062441d12629c2302e8441e1208f520bc58941efaf1b45fc78b241fb395476e000004205c81119eb1524421041ec596ada364216abc11c294f95421d8f2b7afa3aa14222069f2cb127fa422490d2787a975f4225f0596f756cb34225dcd06d6b08a3422452540de3f46b422194e73590aacc421c3bf1e0e98a0a4214f55b8a915969420c9e1d50cbe5754201d8a294b0de3241f42407d4c7f4ce41e44c27ec2abf9641d1e9487efd958c41bad203d383650441a012ef80c1a1ba417abaf7eccc416b,
  0x4173a70ceb7a6b774188f2df6ea5d3a2419568ae0999ec6b419c983fb669a4a9419f6c1bad3ba9e2419d3b1db96546c7419764f0170b6d6941904196a907e54d4183b49b694bb6c94174db97cc790ae141633df0ef067f78414ecb73de1520e7413533ff1eaa25344118d2c4296be81140f84805c1ba20de40d3590b972ae3f640a82c492423a0a740763f702c34e466403adebc19b717023ff0000000000000403b33f3f1490dee40775fa861ece6f540ab0652d0a7f58840d79dce897e76a241009d9a2426c75d412394eb0ce6da304143dac40fa5878b4161a8906b7d58f9417bf4755344e4cf4193ea311883689b41a9c35267f06cca41be79c122573ca441d09398500b300241e0a930e64b367c41ef0f87378b69c741faef2f9f22c6544205c81119eb15244210757bd9700000421746c4130f3ac6421ed5f5979251694223252c57b92b7b422649f7ab0c4d5e422852e5cdc772ad4228dde2598ac6364227c9fe02c304c9422543063643ed2d4221b6bbc38a5c87421b6e30fab27f314213a8e127c05a0d4209f30fe172b9a841ff5215a596e0cc41f11f19917ca2fb41e0bb5af2aa30e141cca93f116326d441b4d8739015df7641984acc1428331d4173a70ceb7a6b77,
  0x416bcafad47feb164180b6819a6a5528418b16f8fda77393419106e73c08a41341918a8f81d32f9d418e75cbfe2367c74186a303cf40473a417d0a28654728514170224c627779b6415f0cc34f9d69bb4149c7af05ef3aab4132564482b282a14116184155535cad40f62bff745d158e40d212ba61d932a940a70aaa0ca7437a4075974cad705597403a7ecad724e9853ff0000000000000403adebc19b717024076d78e877aaaef40aa2b37c5fcbd2a40d6b13e02ee1edc40ffba8f110d7d4941229a45b2a81c144142ca9f1699923c4160abf1b21768ee417a5c365156a8b24192c75c769b18a841a852c2694ecc8941bcd807407b692e41cf7ed49815419e41dfd0b04e0c4d6041edd8652e6134dd41fa14d02b62dc3a4205493c9535a747421041ec596ada36421746c4130f3ac6421f459e838800004223ba43eb3a8d3542276220a9b774d2422a0a12a3adec04422b3b8bbab4e686422aba11272d4990422895c947b5f5d9422528d42857e6274220ffbbe177173242196a6ffc94fe8542119bcac6b26bb242067e0c0ea61d4141fa4cb32821df0f41ebe1d3ba4bbdfe41da723c480ba6c441c600ebc2c1c13541af1e273772f6f54191a4337853cbab416bcafad47feb16,
  0x4162e1ad4bdf0d8f41757261b2a6ddad41805be61713d0804183477c6e1bc07241828996897a56f0417de407e14b86594174813ff38bb2c841681cda3d9c545741585b85cd3830ec4145181efbef775e412f22d929499251411360dd2e6c5b4340f4038eec91085b40d0bc88e15e68da40a5d3fcb39577444074df233d5b3b09403a13a9cb9966503ff0000000000000403a7ecad724e98540763f702c34e46640a9378722149a8b40d5aacd5d398cf740fe0fe02fef2ae441218387f56f80cd41419a5922ddb4b2415f1e2c6452183d41788a3e5fc0c83a419175e50c39370741a69da77bdfbd1141bada280157fd5b41cd64b06a85bbe941ddcd88e12c147c41ec1931bca787fa41f8b61372bca3874204530f727f3340420f550f25ae7c234216abc11c294f95421ed5f5979251694223ba43eb3a8d354227c230f2e40000422aefd50f827666422cbf2526b6e5dc422cdc85e77f92d4422b3c675f854b154228202290255b74422405ba9704d8a0421f0fc0ca1b40324216725478765b35420e197f9825fcdb42029f88ae45954441f51d997b2cbbfb41e5ba50e7900bec41d4051f779952e941c031b7b20abf0a41a64878f1511b89418899ca6b0ab2fb4162e1ad4bdf0d8f,
  0x41589e57fa72a49f416a517d20abba9d4172d1f526c358114174b37ba68cf69541727b9c1e4523fc416b829b8e87769841614c9703f559a041527e5c9bb394ef4140d02f4fded3d84129e2b9dce7cb584110b75a648e8ace40f1d5c552b6b18c40ceb32dfe7f4ef640a489bdaf8a0a2c407416f2d5861d2e40399ccc999fff003ff0000000000000403a13a9cb9966504075974cad70559740a82c492423a0a740d48c9c919fc92840fc40252f568935412054ea0f72657a41404f93fdf7abec415cb072f0ce3c9d41768a5816684339418fff0b281c098d41a4b23573dba29341b892a7962086fd41caee76c9a2baf141db5fda625f25ef41e9e7cc25ae027f41f6e5bc76a5541b4202f3e0f814565c420d71bbee8958d24215804e5e778569421d8f2b7afa3aa14223252c57b92b7b42276220a9b774d2422aefd50f827666422d448dec240000422dfc1efd4f962b422cf259b110b850422a4e0070eddf25422677ecc58b68ea4222010e9df20cbc421affe0dd568e3f4212e1bd8afea3f742088736858d1b1d41fd6eabd106277841f031e7d497934a41e030368983920041cd00d34412359d41b6d3a058cb6fe7419e952e5efd6f1c418072ee346b54a241589e57fa72a49f,
  0x414ec215f3cd50b2415ed3a46b5b686541649311e9497efe416503a949fffceb416151b847f6efae4157a149b482859d414b044ba2bcdbaf4139fe72a096dd3c4125019b1a713148410c4c71f3f0da3340ef53df3f43469a40cbda8937c499bb40a32d97327fa52440733eba23c596304039198c8b8307c83ff000000000000040399ccc999fff004074df233d5b3b0940a70aaa0ca7437a40d3590b972ae3f640fa50deb35978c3411e260dd91480a0413de0d51d5c7ccc415a1c2fb2fa237241746944d0f0c99a418cdda561bd72ed41a2a00646b73f9141b6162e78b6430f41c834e6216e65fe41d8a2964b90371b41e75ef42ee37ad741f4bc0722bae0b642013fb272c593dd420af7d180723d6f4213d88807861934421b88f381a3f44a4222069f2cb127fa422649f7ab0c4d5e422a0a12a3adec04422cbf2526b6e5dc422dfc1efd4f962b422d89b767a00000422b758a33971ecb42280fce9d9f98334223d80a3a762c0d421ebdf6cc6d876042164ea8fde9e0d4420e39c294b533db4203098662c7c25e41f62beeffbf77cf41e7b3d4079a299341d708de7d1cfb7141c413af25b57e3941aec55c757ffb7d419415a9dda32cbb4175109f495c5423414ec215f3cd50b2,
  0x414261aa91678ed2415131bf6c8e574c41554ff8ebe0f7da415417f0a7de58ba414e5c51d058f58f4142d4301fc1d59941335feeb96caf67412091e9a7dca85c41076ef87267556040eb0f03b3b8589d40c8f66313a9f0f540a1c165cddb45ff407256776e80466140388922de324cbe3ff00000000000004039198c8b8307c8407416f2d5861d2e40a5d3fcb395774440d212ba61d932a940f84805c1ba20de411b859653847cf4413b06a11987ef6e41576f815f56879a41723453858bcd6541899da90a75374c41a0776c7815019341b37a84f746fc2141c5526aa265e88941d5b3087eb6f4df41e49c782584a50d41f254d798b6cde541fe9d15b7f4b35842080d65370731f24211d01e15ba26fa4218e8042998f2664220748dd7696700422490d2787a975f422852e5cdc772ad422b3b8bbab4e686422cdc85e77f92d4422cf259b110b850422b758a33971ecb42289d6e2bb000004224d3607e7a6fb742209a44306073634218e414e4ca61f042117f4373c972bc4206fd572b51286d41fc1b8f2371e0d341efccd889dc94fe41e086975343b9e241cf408db1cd2e5a41ba85bd4a02139b41a3cdbfa5728637418934bc8d2038d34169ca9f22d582f2414261aa91678ed2,
  0x4134fa14f81d905341423872ae4f0faa4144d8da1aa7982c41420454609eee1a4138bf859e6fa760412ba06c4d0bb569411944db33248f8a4102e8d947ec3e8d40e6ebfeacc2b5cd40c60e7b0bfd5bb940a0473e62b0716c40715e286b9b11744037eaa126f152833ff000000000000040388922de324cbe40733eba23c5963040a489bdaf8a0a2c40d0bc88e15e68da40f62bff745d158e4118d2c4296be81141381dde76030ce74154b8caa78ee579416ff1e3765e17d44186553732c7f21b419c917c9e71ecf741b0d5836f8f51ba41c261ae22a4a2e041d2af125914e35941e1bf380052049241ef9b5ce7c355ef41fa7510c1dcf79c4204dd57422729e2420f0f5d6b857f314215da47f640a970421d198574891e6042225a16443dbe854225f0596f756cb34228dde2598ac636422aba11272d4990422b3c675f854b15422a4e0070eddf2542280fce9d9f98334224d3607e7a6fb74221084cd2500000421a47f2f6849646421315bb4436f003420a04b74676085042009715af8459e641f3b43a7c33c30741e5ac5e445d2f4141d5ead6001b410341c42dc3f3d9c78441b0af8ff300d89c41984b7d144d5ba5417e2b0a641c5fe8415e224782bdd4fd4134fa14f81d9053,
  0x4126cde4ff291b28413248ba93c7e6f341332d3096b574d8412e220c2c3adea94122a03a059aab8941127b67e36ccbcb40fd955751e0af3940e2f9becca8561540c32b105447b7ac409d82eb3ed3efdc407055ca01daed8640373ce704fb7b233ff00000000000004037eaa126f15283407256776e80466140a32d97327fa52440ceb32dfe7f4ef640f4038eec91085b4116184155535cad413533ff1eaa25344152064bc331c0a3416b887417a24be4418319aa89d168be41984744c5e65ddb41ac780c6a8a47e641bef85a00151c7541cf66d2527c54d041ddca4bb6f6793641ea871fd2cfea1041f63baf188ca7a4420193abd80d97f1420a437d36f7bf85421292398936f5dd4218e339d56372c4421fa27bc50b86a04223154cc7975ea04225dcd06d6b08a34227c9fe02c304c9422895c947b5f5d94228202290255b74422677ecc58b68ea4223d80a3a762c0d42209a4430607363421a47f2f68496464213a4691bd40000420ba9ccd73a9c8342024d53fe56967041f6ac5059b7454841ea2e3e8daec21a41dc04d8cfaf399e41cb96b84c08c66941b8bfc032d8c53b41a3f40bab069aa6418c5806a6675fd741712dd0dc57e3574150c2ab07773e5f4126cde4ff291b28,
  0x41178d59fe08858a41214f620869c5d74120812869099aa04117574689b142634109a623430b3d8d40f645010a5f714440de8db68a4aae1f40c054e1a9111167409a65532d989896406e7aafccab848640367e93ddbc0e723ff000000000000040373ce704fb7b2340715e286b9b117440a1c165cddb45ff40cbda8937c499bb40f1d5c552b6b18c411360dd2e6c5b434132564482b282a1414ecb73de1520e741674507cbbe655d417ffd90198d805d41942ccc7ea4cfe741a781e871ebbc0741b971ce34c940f441c9b3efebe8838041d852d82b7dc7a241e5a218ca6e2ce141f22183865a2b1e41fcb3eeb23b2c7c42057f4fa5727576420e83fd08e62e8142148cdddce20c05421a49b925c75b22421ff63fff5ec90242227a2bdadd38f9422452540de3f46b422543063643ed2d422528d42857e627422405ba9704d8a04222010e9df20cbc421ebdf6cc6d87604218e414e4ca61f0421315bb4436f003420ba9ccd73a9c834202e82e6a30000041f84d8db20562a841ed4556448dae2041e0715a87ce23ac41d1225da455452741c07046c20f860641acc17a27f4ddb241969e41985f2987417f5d46c90631354162914d762acdf44141b4189fe08a5641178d59fe08858a,
  0x410708d276fd683a410ec7f5c44c44be410a69ec2129d16641009a226642c2d740efed364309cc6a40d7c292b3e5b30c40bb2a59e55ae7cd40973b9c7d3010e0406c2997f6ba58524035adf29f948cfa3ff000000000000040367e93ddbc0e72407055ca01daed8640a0473e62b0716c40c8f66313a9f0f540ef53df3f43469a4110b75a648e8ace412f22d9294992514149c7af05ef3aab41633df0ef067f78417a2c011b63e85a41905acf7cadd5e641a2e8cd9d246da941b45684da1fb12941c47103f185ad7841d345bbf700a9f341e1192b362dd6e941eca006245cd29a41f6a8759fb3e9664200fdacd0b7d85342082db23508f1e2421057f5d88b15464215031a6731602b4219b5cc95fff607421df4f710518f894220a01a578eec4e422194e73590aacc4221b6bbc38a5c874220ffbbe1771732421f0fc0ca1b4032421affe0dd568e3f42164ea8fde9e0d442117f4373c972bc420a04b74676085042024d53fe56967041f84d8db20562a841ee5f057aa0000041e1cba23af0de2441d37787a93c4e9441c3c3f103c173c641b27d244f86271f419f8dacc257729e41883a505f9f61d141706853ff0ffa8f4152fc21b7d60e814131b2fa1dabdaba410708d276fd683a,
  0x40f540009ffffda540f98e8ee225bac840f37e77b095a8a840e5713bf6e7855240d1ac069ee446ec40b5eb5d0c69fc5040940c7c1a6f19614069b83a7a4bfb8d4034c8dc2e42397f3ff00000000000004035adf29f948cfa406e7aafccab8486409d82eb3ed3efdc40c60e7b0bfd5bb940eb0f03b3b8589d410c4c71f3f0da334129e2b9dce7cb584145181efbef775e415f0cc34f9d69bb4174db97cc790ae14189ca647348f477419d8bfd9fa1057c41af88c72178739841bf7e797039349d41cd8b457865cb8141da1d0cf38278e841e5ce0b6ade81ee41f13cfe65554a7441f9da78c98f819d42026aef770ba1bd4208f5f8dc05730d42101b0125b197104213ce44c0fe80c64217396aba1102ff4219fa5e38c083f1421bb9b37025100d421c3bf1e0e98a0a421b6e30fab27f3142196a6ffc94fe854216725478765b354212e1bd8afea3f7420e39c294b533db4206fd572b51286d42009715af8459e641f6ac5059b7454841ed4556448dae2041e1cba23af0de2441d44e180e40000041c5a487eec61db541b56cd88952082041a38d7781af20c441904984fba54dfa41786e175de7960541602b22406d5cec41424ae533b38bd14120aed628f512d140f540009ffffda5,
  0x40e2672e28db076940e3ac76aeb0c32540da42e956aa7c2840c8c26bf65b202040b1013ef44fe2d54090dfa12e5de8554067267ba1bec03f4033cc8a99af54523ff00000000000004034c8dc2e42397f406c2997f6ba5852409a65532d98989640c32b105447b7ac40e6ebfeacc2b5cd41076ef8726755604125019b1a7131484140d02f4fded3d841585b85cd3830ec4170224c627779b64183b49b694bb6c9419655d6eb76b75b41a79eb7163b86f941b7687bc3e86df041c5d1d899c77dd441d3307d25a30f5741dfed4dd035503241e92d9703f6c5a041f2db7e029ff06541fade1e206bdd5642023a9368eff0ea420794f54009baef420d1bbe1555317a421126fb3c149d1642134eed421c065e4214c45b9c8a6a4b421557d00ea3970a4214f55b8a9159694213a8e127c05a0d42119bcac6b26bb2420e197f9825fcdb42088736858d1b1d4203098662c7c25e41fc1b8f2371e0d341f3b43a7c33c30741ea2e3e8daec21a41e0715a87ce23ac41d37787a93c4e9441c5a487eec61db541b67de38200000041a5b8fe80b9c7fd41935a2099a0a078417f7d90e6705f4e416714957b876d8e414ddf22d338cc30413087d529fb5070410d82b2060924b840e2672e28db0769,
  0x40cdbe6ad0a6791b40cbd2a29821d81440bfd5663cbe4de040a902c5d8a25ddd408b7be86c3d7dd94064742e8b6df2e94032b5524ae1278d3ff00000000000004033cc8a99af54524069b83a7a4bfb8d40973b9c7d3010e040c054e1a911116740e2f9becca856154102e8d947ec3e8d412091e9a7dca85c4139fe72a096dd3c41527e5c9bb394ef41681cda3d9c5457417d0a286547285141904196a907e54d41a10221f0752d8941b0b3ac5e07e5d541bee5acb3e767e341cb0021c3c784b741d6595011beeb5641e18f167ccabf6541ea3ca3f6ea0fb141f2aaf9366636b541f954c064ea7474420067b43790209042044cc4ae17c0c14208035fba834252420b2af5ad82b6b6420d6812dac5f73b420e74ed542582c1420e2eff80936b49420c9e1d50cbe5754209f30fe172b9a842067e0c0ea61d4142029f88ae45954441fd6eabd106277841f62beeffbf77cf41efccd889dc94fe41e5ac5e445d2f4141dc04d8cfaf399e41d1225da455452741c3c3f103c173c641b56cd88952082041a5b8fe80b9c7fd41947af4a00000004181d22c42777f51416c570a0d88133541544f49e095f0ac4139b6d9cf86eee8411bdab97526842440f8584e451d9d1140cdbe6ad0a6791b,
  0x40b6421bace7e01040b1d8a67d30af1040a10409854762d6408563e1b4be3ade4061a1056acf593540317e2bca46bab93ff00000000000004032b5524ae1278d4067267ba1bec03f40940c7c1a6f196140bb2a59e55ae7cd40de8db68a4aae1f40fd955751e0af39411944db33248f8a41335feeb96caf67414b044ba2bcdbaf41614c9703f559a04174813ff38bb2c84186a303cf40473a419764f0170b6d6941a6ba7453682b9a41b4d4b39831143841c21043b2e2d0cb41cdb6b6ea975cb341d73a7138f312ac41e14a12c54a0a2541e88ad784f538b041f0a172adbab39641f58a7b421a0f1541fab01c3422805141ffa5e2d1a676e34201f845fefe8ad242038c700fd760a342046032d6c32e624204598a80b47486420378ca1f86942a4201d8a294b0de3241ff5215a596e0cc41fa4cb32821df0f41f51d997b2cbbfb41f031e7d497934a41e7b3d4079a299341e086975343b9e241d5ead6001b410341cb96b84c08c66941c07046c20f860641b27d244f86271f41a38d7781af20c441935a2099a0a0784181d22c42777f51416e4f21800000004157906a746007b74140851ef8e7435e4124789701fa0e564105b67c2611c21f40e29702c2680bb140b6421bace7e010,
  0x409e89bd654a867740946772779d37ed407f20940af6494c405d58d90068ef1040301fe03f61bad03ff000000000000040317e2bca46bab94064742e8b6df2e94090dfa12e5de85540b5eb5d0c69fc5040d7c292b3e5b30c40f645010a5f714441127b67e36ccbcb412ba06c4d0bb5694142d4301fc1d5994157a149b482859d416b829b8e877698417de407e14b8659418e75cbfe2367c7419d3b1db96546c741aa816cf020a29541b6c642dafec20c41c296543040cca441cce065d225477641d562c0169dee8f41de3e775823cb0041e47190690f5e0f41ea72729132290b41f0621694716cb541f373b6957596c441f6250141d6d17f41f82e25ca8a812341f95495f1a3ca4941f975961c321b7041f88ccf6fda663141f6b536aef08a1741f42407d4c7f4ce41f11f19917ca2fb41ebe1d3ba4bbdfe41e5ba50e7900bec41e030368983920041d708de7d1cfb7141cf408db1cd2e5a41c42dc3f3d9c78441b8bfc032d8c53b41acc17a27f4ddb2419f8dacc257729e41904984fba54dfa417f7d90e6705f4e416c570a0d8813354157906a746007b74141ec02000000004128981e91ac9868410dd768283ab39740ef017376eb530240ca03e5254eda81409e89bd654a8677,
  0x4082f05b3e81f78f40743f1c6cc855e440572a4870255098402d1ed52076fbe93ff000000000000040301fe03f61bad04061a1056acf5935408b7be86c3d7dd940b1013ef44fe2d540d1ac069ee446ec40efed364309cc6a4109a623430b3d8d4122a03a059aab894138bf859e6fa760414e5c51d058f58f416151b847f6efae41727b9c1e4523fc41828996897a56f041918a8f81d32f9d419f6c1bad3ba9e241aab63b302686a841b59a020d8dedd241c0a68aa16cc88c41c8819f6b44f2b641d13de284cec18641d738ede8eab9f141ddf7b2dcb560ae41e28a87a2ec3db641e603a2fdc4975e41e917a314cf12aa41eb7789028b041141ece190b60fe38341ed2ca0f7a7f40e41ec4fc9aa09b10b41ea63f7d394ef5441e79f6f8815f81941e44c27ec2abf9641e0bb5af2aa30e141da723c480ba6c441d4051f779952e941cd00d34412359d41c413af25b57e3941ba85bd4a02139b41b0af8ff300d89c41a3f40bab069aa641969e41985f298741883a505f9f61d141786e175de79605416714957b876d8e41544f49e095f0ac4140851ef8e7435e4128981e91ac9868411086140000000040f3a3d36dad3f5640d3ff8088d0369340b073471862c5c94082f05b3e81f78f,
  0x4064cfc8a5c43b104050afbaf6d01f09402974b2334f23463ff0000000000000402d1ed52076fbe9405d58d90068ef10408563e1b4be3ade40a902c5d8a25ddd40c8c26bf65b202040e5713bf6e7855241009a226642c2d74117574689b14263412e220c2c3adea941420454609eee1a415417f0a7de58ba416503a949fffceb4174b37ba68cf6954183477c6e1bc072419106e73c08a413419c983fb669a4a941a6e0d512126d4541b1793ac4a8499d41b985011dcc037241c1d7442b7723f141c7e8adeadded3541cebd0b1dfd024841d2f89795758a6041d67f35b4f1830b41d9a47d1b4ad77541dc1a95031f868f41dd9fc161825ff441de096c886f2a0641dd4ba58b09dacf41db7b4acbb2c01c41d8ca58db1df4b841d57f3fe11924ac41d1e9487efd958c41cca93f116326d441c600ebc2c1c13541c031b7b20abf0a41b6d3a058cb6fe741aec55c757ffb7d41a3cdbfa572863741984b7d144d5ba5418c5806a6675fd7417f5d46c906313541706853ff0ffa8f41602b22406d5cec414ddf22d338cc304139b6d9cf86eee84124789701fa0e56410dd768283ab39740f3a3d36dad3f5640d6e0800000000040b6d65bdeb2a9fa40926cb3c5db22454064cfc8a5c43b10,
  0x40439f152d0f54704024f9e6bbc4ecb33ff0000000000000402974b2334f234640572a4870255098407f20940af6494c40a10409854762d640bfd5663cbe4de040da42e956aa7c2840f37e77b095a8a8410a69ec2129d1664120812869099aa041332d3096b574d84144d8da1aa7982c41554ff8ebe0f7da41649311e9497efe4172d1f526c3581141805be61713d080418b16f8fda77393419568ae0999ec6b41a02d67e52aaeb541a7692630e482d041b03d9419aa283341b5a05ce02626d841bbaa239afd4edb41c102a22fb3243641c41f319f4a8d0541c6e838cc72d81041c91b199c34c65f41ca7f1df5f758bc41caeeacc1834a8941ca5dae96bc11ba41c8dba944c5edd041c691130027cf7d41c3b87cfa97c31941c09525b7f731fe41bad203d383650441b4d8739015df7641af1e273772f6f541a64878f1511b89419e952e5efd6f1c419415a9dda32cbb418934bc8d2038d3417e2b0a641c5fe841712dd0dc57e3574162914d762acdf44152fc21b7d60e8141424ae533b38bd1413087d529fb5070411bdab9752684244105b67c2611c21f40ef017376eb530240d3ff8088d0369340b6d65bdeb2a9fa40965c00000000004071b2daae6e27b740439f152d0f5470,
  0x401deeea11683f493ff00000000000004024f9e6bbc4ecb34050afbaf6d01f0940743f1c6cc855e440946772779d37ed40b1d8a67d30af1040cbd2a29821d81440e3ac76aeb0c32540f98e8ee225bac8410ec7f5c44c44be41214f620869c5d7413248ba93c7e6f341423872ae4f0faa415131bf6c8e574c415ed3a46b5b6865416a517d20abba9d41757261b2a6ddad4180b6819a6a55284188f2df6ea5d3a24191dc268f10090741988daafafa12a741a038dcae3a621b41a49eb6fd828d4e41a93af7202d8cb241adbbf6b1826dba41b0e218198b55ca41b27b1d1a287d5e41b3812f4aac53d141b3d991092201e941b37b081d7962fd41b26f6adeb2254f41b0d1fa1573b32141ad95cee62a9e3841a9120f3bce979e41a4760e7bd064e041a012ef80c1a1ba41984acc1428331d4191a4337853cbab418899ca6b0ab2fb418072ee346b54a24175109f495c54234169ca9f22d582f2415e224782bdd4fd4150c2ab07773e5f4141b4189fe08a564131b2fa1dabdaba4120aed628f512d1410d82b2060924b840f8584e451d9d1140e29702c2680bb140ca03e5254eda8140b073471862c5c940926cb3c5db22454071b2daae6e27b7404b800000000000401deeea11683f49,
  0x3ff0000000000000401deeea11683f4940439f152d0f54704064cfc8a5c43b104082f05b3e81f78f409e89bd654a867740b6421bace7e01040cdbe6ad0a6791b40e2672e28db076940f540009ffffda5410708d276fd683a41178d59fe08858a4126cde4ff291b284134fa14f81d9053414261aa91678ed2414ec215f3cd50b241589e57fa72a49f4162e1ad4bdf0d8f416bcafad47feb164173a70ceb7a6b77417abaf7eccc416b41817fc640516172418612652e4dd640418ad5f667b999f1418f77bec016f88a4191cd04817a4cfb41936fefe38e473141947d19241e6add4194d9f0630f7a8f41947d19241e6add41936fefe38e47314191cd04817a4cfb418f77bec016f88a418ad5f667b999f1418612652e4dd64041817fc640516172417abaf7eccc416b4173a70ceb7a6b77416bcafad47feb164162e1ad4bdf0d8f41589e57fa72a49f414ec215f3cd50b2414261aa91678ed24134fa14f81d90534126cde4ff291b2841178d59fe08858a410708d276fd683a40f540009ffffda540e2672e28db076940cdbe6ad0a6791b40b6421bace7e010409e89bd654a86774082f05b3e81f78f4064cfc8a5c43b1040439f152d0f5470401deeea11683f493ff0000000000000]

/-- The coefficients for `2 ell = 57`: one number for each of the 58 values of `mp`, consisting of the doubles for the 58 values of `m`. -/
def wigner57 : List Nat := [
  0x3ff0000000000000401e3307cc56cf5b4043f9989320b7f7406561c709864bb34083a3fc558920c8409ff8f7ba2fa8ac40b787f91d92e1a040cfc1f90e8b6d4e40e3d93ba917245140f7281aeff0550941095de9f5e905d3411a37a5acca04f04129aa5560ab43994137e01f2deebd7c414529d1211684894151ea842264e614415d0701666a951141668a1f6d382c0d4170cccbaaecbb21417811c0d58d1b58418096b2037c84d5418604ed05459a5b418c2ac7a05a4a5a41915f90bcfe07db4194ada961900a204197c1f445c81dea419a5b52868371de419c3dde72da1a5e419d3ba015b2a02e419d3ba015b2a02e419c3dde72da1a5e419a5b52868371de4197c1f445c81dea4194ada961900a2041915f90bcfe07db418c2ac7a05a4a5a418604ed05459a5b418096b2037c84d5417811c0d58d1b584170cccbaaecbb2141668a1f6d382c0d415d0701666a95114151ea842264e614414529d1211684894137e01f2deebd7c4129aa5560ab4399411a37a5acca04f041095de9f5e905d340f7281aeff0550940e3d93ba917245140cfc1f90e8b6d4e40b787f91d92e1a0409ff8f7ba2fa8ac4083a3fc558920c8406561c709864bb34043f9989320b7f7401e3307cc56cf5b3ff0000000000000,
  0x401e3307cc56cf5b404c00000000000040723085b5f14de840931de1c3db1e4440b13c12294680e940cb86d0c16506a440e3de9432fe6a1840fa4a41f138e60441101a4863bfa67c4122672e28db07694133bd526c8c64eb4143f7a1a757ce7741531f392ed39507416164a2fea42941416e224782bdd4fd4178eabd0e4491194183b456102f87b2418ddab6dc61cccc4195b2211bc7029a419e495e96d1b85141a45304de37dbd841aa3fa9607a122c41b052860c8e95ed41b38f4d78a01ab641b69897709fd68841b92c9899abfa0841bb0e36159683a241bc0e2581c3600941bc126b9a8b269d41bb1a9cdbd5cd0241b93fee8e6309a141b6b114963c2c5641b3aad7380e5b5641b06ef9c645b34c41aa7695fd8d515141a485004a4cd9bc419e9f9af08e6a894195f8e2ab0bf496418e495e96d1b851418406e37c1a29c94179604ea1b987ae416ec215f3cd50b24161cc3de59eb0c841539f406cf2ae6941448e34fe64eaf0413465925414e33b41231962f91c562f4110ccb31592b7ee40fb9ac53d488b1d40e50834c0fa519c40cd71e37491a57540b2b35e4e1ca01740952ca094c3ddb94074cfc8a5c43b104050fe1e036d703c40252a7fa9d2f8e93ff0000000000000401e3307cc56cf5b,
  0x4043f9989320b7f740723085b5f14de8409734000000000040b7ef2d0a67c5fc40d52bb83fc2e06540f094ddec24a0a9410777f4e4418bfc411e6e61d66504564132423ab3d635cd41446eaf67b8daae4155732e76f7d3cb416539cadd8d380e4173e01b3f48a2b14181aae5ad254eb9418de5c6356f893e419822065dfaae3441a29e731d83de7541ab8124e096fe9441b379c03f68785c41ba78c6f128d35941c148c073b93e7441c5b3cc48f9456441ca382ad3ea7f9c41ce7ee71dd1796941d114bd7dee62d841d26f6adeb2254f41d32c7da8eed6e241d33834a58a502841d2915ec8bb90d841d1498d3679aa2a41cf0431a68366df41cacd54d09db08141c64cf90521d24b41c1db80497938cb41bb818529f4273b41b45bccecd432e641acefbb0bf7073041a3b9442ae13a334199c19ef87abfcd419015c945fd264241832ebf228b71394175cc3bd7a0a08941678b5761ee528a41581a7c1344175441474ec82a3d1fdf413533504380ad8941220c093cfda2ad410c92cd683f001440f4ddf9f219620f40dbd2a29821d81440c0b194c1ade80c40a1aba34e7fa8a64080019beb49954b40579923933d8a494029b0c25315c2cd3ff000000000000040252a7fa9d2f8e94043f9989320b7f7,
  0x406561c709864bb340931de1c3db1e4440b7ef2d0a67c5fc40d839000000000040f50389ebd0424b411022c7cdd709bc4126618e1e2c06b1413c6dc3e184eb4b4150b3afe14ae3d541624ae533b38bd14172c93d2711c93641822d38cb03454f4190a22ab9dbadd5419ce23f9824111541a7db6aa349a7c541b2c995f993633e41bc43d17a00cbc541c4577271d85d5141cc0c97ec3e50d141d28c247771b59e41d78c29bb1ada8541dcb8cf958b81a241e0d6f7ae29849741e2fe21e9798d4741e49c7818c6101541e587179eb09f6441e5a4d1d67ded8d41e4f2865d9f011541e383aaa14a29e241e17edf996ea12341de2eca6eefd38841d909d8d5f632fd41d3f717f8555a0441ce95996f15623041c67be825558b0341bfb2c329b7902b41b56690a19f295f41aba386f944173941a10b286dc26f8a4194091b895905e0418666843f2e85db4177c1e3766588364167d3f6683e0d7a415684757e6245314143f5a5911b79844130812869099aa041194a0c3bd807634101cba719e102ce40e6be364e03ef6f40c9fdf4eb72363640a9fdf4eb723636408602a2c04eb34c405de7f65eb09b32402d64d51e0db1c53ff00000000000004029b0c25315c2cd4050fe1e036d703c406561c709864bb3,
  0x4083a3fc558920c840b13c12294680e940d52bb83fc2e06540f50389ebd0424b4111df6400000000412ae6117b7b659a41424629852f489b4156ba791b25a67d416a233e78d1b2aa417c0130a6053f6d418c1effeb475713419a97267d3071ed41a7c45cdd1b90fd41b424ed715deb6741c03b9213a4ff1141c8ed6452e0b2e941d2452ee5c3fd5241d99af47bc20c8141e12d328f592fe441e615ba5fd69eaa41eb3ccc14ba249c41f01f6fe8d2db8141f2552fdd1210e441f407ce6826126c41f5094614ad213341f53d3e6b33f1d641f49e120442249a41f33dcb2ab75de641f142db4ff7b83c41edc2b7eafa8d1841e8a4e5f29caab641e3978cfdd2900c41dde2d96595688241d5d9bc680eab9241ce98cc0c62f5c341c47d539cb9d6a441ba35d826fc6e6c41aff8497c2891c441a28e0134401370419472df9cd8c4a041855695016c4ad9417503a949fffceb416374993a70ef8a4150da707494a6e4413b295937027169412436bd8b92c475410b880cee55e16140f0f39ee623ba4a40d291d0f8c4581840b1af71aff7f260408c4be9198cb7004061f8a92ba3193e40304760c95db3103ff0000000000000402d64d51e0db1c540579923933d8a494074cfc8a5c43b104083a3fc558920c8,
  0x409ff8f7ba2fa8ac40cb86d0c16506a440f094ddec24a0a9411022c7cdd709bc412ae6117b7b659a4143d41800000000415a615d592ff4db41700e66064ffdc241821032c719fd7b4192ec65f5276b1341a291fbcf0f935141b126addeae152f41bdee118089e7fa41c8bfc032d8c53b41d371db2b84c3e241dd181c26ad092a41e4c35db069c42f41ec5004b1f5685f41f2770f46424e0841f71032a1b422b041fb9b894398d0a741ffb17c815d5a23420174a720ecf268420274fac2b9658b4202bcd04db0a02e42024419ec46f138420119186981c22541febb51072ecb3841fa823488f9173b41f5f02b7a2f3f5d41f168daabcb0f8041ea7a4328313fbd41e346df8ec7e0cf41dad868ccb54add41d1db1108a5981341c6a7ebdd02f5a441bb5f1a12a213aa41af6c1bad3ba9e241a118db6711e4574191960f6344b92141810a54274b27a2416efb4778435dbd415a4b06b5850b3d4144b4ad8ee74e87412e0888d190cb2a4113de1bc1b60c4e40f7ad6a8d3be87140d8fdf050a55f0e40b6d07e05a76af0409161e61cb0517a4064dbe0ef39fb5f4031a9dc8f6df1033ff000000000000040304760c95db310405de7f65eb09b324080019beb49954b40952ca094c3ddb9409ff8f7ba2fa8ac,
  0x40b787f91d92e1a040e3de9432fe6a18410777f4e4418bfc4126618e1e2c06b141424629852f489b415a615d592ff4db41712cd740000000418473dfa3d5723741967f760104640941a708974a2f297741b613f7c234f8fb41c3e7c077d9160c41d0f1cac20a98d541db527abe8df33841e4ea7f1f2dfd8b41ee78d31721dffa41f5289ec1545b6041fc0ceb4b86bb5c4201c57d6c4ddf3042058b479c5eb10c420901ed586f3765420bcfb41bf05b13420da5a1260da935420e4d7abbd65312420db3d9cb8fcaad420bebc44c72ea4942092ae8f0624db14205bf7d16fd125a420202518f023f5a41fc90eb4cc5c59741f5af0872ba3e2f41ef7a9d4351eb0841e5d3a4c7bd065041dce065d225477641d232246d8a8b8841c5ce0cd1aa40fe41b8cb2f34af3cec41aaaf1e810c3167419b1a23fdf3083d4189e2da614ed5ab4177273cd07cce0541634b390fb76057414dc562ea808a1b413519a6ff0ecb36411b3470d74ae5da40ff7e6ff0be3a2e40e015ebe29bc4f840bc4c3d350894f94094aa71b81fa5c940679e38d26d4fc14032e4fa41f10c9a3ff00000000000004031a9dc8f6df1034061f8a92ba3193e408602a2c04eb34c40a1aba34e7fa8a640b2b35e4e1ca01740b787f91d92e1a0,
  0x40cfc1f90e8b6d4e40fa4a41f138e604411e6e61d6650456413c6dc3e184eb4b4156ba791b25a67d41700e66064ffdc2418473dfa3d572374197d075c000000041a999b1c800000041b999b1c800000041c7f43e7be7ce5241d511ea6cdef77141e17cd0daa9db7741eb798e199f73ec41f47ab7166c4d7b41fd078aa0f75cbb420398dd2973481642093ced5e0294dd420f09e3cd1ea37142123e649629ac89421483cd39fe5c334216143855c3b6bb4216c071a59c8b36421673f88c68a82f421538eb4fc463a1421335e62ecf68414210a66fd98c8428420b9fe7e85f13104205ec172ad3328b4200a172adbab39641f819a0d46f314b41f0a9122b58ae8241e5f2dc1bfd6f3e41db8272fe52629541d05f187776bd4441c276ef4862579441b3aeede7dc45d041a3c59388d485414192a5ab5efcadd6418070c3588d7f53416af5757ad3e0f941546c3a59b528cd413c5c9906a323b34121de2c101319324104285cb342a55f40e400835e508ef840c106dec9c8b4b74097f67e1debc514406a40000000000040340000000000003ff00000000000004032e4fa41f10c9a4064dbe0ef39fb5f408c4be9198cb70040a9fdf4eb72363640c0b194c1ade80c40cd71e37491a57540cfc1f90e8b6d4e,
  0x40e3d93ba917245141101a4863bfa67c4132423ab3d635cd4150b3afe14ae3d5416a233e78d1b2aa41821032c719fd7b41967f760104640941a999b1c800000041bae1611200000041ca3d896d00000041d7f43e7be7ce5241e48b115d59647441f09cf99c87c3b141f96a09d7b37e6d42026e71942e45bb420966994cd871234210a855966eca124214d243d3f5546a4218d4b63db21c5a421c471be8c0983b421ec5b3d6fd8a4c422001dc0afab147421fda38b4a7f619421e4fc2bd8d4973421b96cb814c1b1e4218035fba8342524213faec9ea89e97420fc4b11806ef8542081d4caf1b84664201765203373c9041f819a0d46f314b41efa7a2858ee52b41e3c0f94c64175241d76214f1c606fe41ca31c0bf24620641bbb266ec93835f41ab8e80449ac8234199b40c98477a08418660673ec8d09a417215a3ae353f41415af5757ad3e0f941426167b7230b1f4126b07a6bb5b628410903d749b4567a40e8306f3d832cd840c400835e508ef8409b3e3142dababf406cc16423e7b94b40350000000000003ff0000000000000403400000000000040679e38d26d4fc1409161e61cb0517a40b1af71aff7f26040c9fdf4eb72363640dbd2a29821d81440e50834c0fa519c40e3d93ba9172451,
  0x40f7281aeff055094122672e28db076941446eaf67b8daae41624ae533b38bd1417c0130a6053f6d4192ec65f5276b1341a708974a2f297741b999b1c800000041ca3d896cffffff41d8fda77400000041e63e3a05573f9541f296344844b03841fd4556448dae204205c89ab8e2fea7420eb812a1a274384214900232048c59421a2d18c7d2ab42421fba4ef9d75c0f422253dbd8343980422432cacad2b5e142253f5db2ec0410422557d00ea3970a422479ffe1d9b07e4222c3a950c52d7842206c0b6b705949421b7191f9ba94f04215e20f586f891f4210a3fb3d58f75e42081d4caf1b84664200a172adbab39641f5ce0b6ade81ee41eb21f904c39fdc41dffb7b3eba6ee641d1d0d30159ecf341c2b5d2d1ac460441b276ef4862579441a10f12739cc509418d600e64e3f92d4177712f35956cd24161392e2c01f31a41471b8944b59c43412c02242341970a410e40a33a479d8b40ec96ace684f51d40c7098e83b9e191409e7aafccab8486406f228170f9f9ff4035e8add236a58e3ff00000000000004034ffffffffffff406a4000000000004094aa71b81fa5c940b6d07e05a76af040d291d0f8c4581840e6be364e03ef6f40f4ddf9f219620f40fb9ac53d488b1d40f7281aeff05509,
  0x41095de9f5e905d34133bd526c8c64eb4155732e76f7d3cb4172c93d2711c936418c1effeb47571341a291fbcf0f935141b613f7c234f8fb41c7f43e7be7ce5241d7f43e7be7ce5241e63e3a05573f9541f34a3073f0000041ff63b56c2e408242080c6790480ff94211666149221d734217d60d08812c7b421ef8d83b9ad67242231dca06fd6cfe4226725478765b35422918979b07d08e422abc62ae2605e1422b279d600dac3a422a4d7867563ae342284cd985273188422569674eac06b94221fd4cd5459382421ccf7462ddb43c4215f95a7a88082d420fe681f7a3e59b4206036cfa3f7e0141fcd859d5270f0b41f1ea1e1c17f12d41e50da8fbcdfbe041d75b4a80628adc41c8652a7154c81941b7e97ca533e7cb41a5e99b0bf4a4444192afe3451afc50417d7f53253bf13f4165664e89c618b3414c4d05caf643a84130e018c98c5f7f4111e5ca15fd3dee40f091e9a7dca85c40ca190189992fd640a0d2f76941a0674070b1b520499c4d4036bcd594fa2a993ff00000000000004035e8add236a58e406cc16423e7b94b4097f67e1debc51440bc4c3d350894f940d8fdf050a55f0e40f0f39ee623ba4a4101cba719e102ce410c92cd683f00144110ccb31592b7ee41095de9f5e905d3,
  0x411a37a5acca04f04143f7a1a757ce77416539cadd8d380e41822d38cb03454f419a97267d3071ed41b126addeae152f41c3e7c077d9160c41d511ea6cdef77141e48b115d59647441f296344844b03841ff63b56c2e40824208d96192e000004212824576933892421a04b74676085042214c11fa0a10094225cb5cef920a28422a10162e9a1070422d9db2f732426d42300105a2a9867f423076385f380d6d42301f60a4218dc5422e139470c2b156422ab7d100550f44422699b975ca020942223270a1a1b5af421be02fcd4243ec42144b753e55d0b9420c0f407f8e4b2842026511ac304d3741f6d5bda99d106841eac9b49f1a61fb41dda12ef05241bd41ced1114b2e290c41be0a89c5767bcf41ab57ca326edcf14197210b4fd3b855418214b17306a6484169f2233f844dbd4150f0d7820f4db44133ea2bf41f6fe54114c7ef1777c62740f2e42a315d447f40cd265d44199e3640a25d48f138908d4071c21582ef075f40377ea35d632e433ff00000000000004036bcd594fa2a99406f228170f9f9ff409b3e3142dababf40c106dec9c8b4b740e015ebe29bc4f840f7ad6a8d3be871410b880cee55e16141194a0c3bd8076341220c093cfda2ad41231962f91c562f411a37a5acca04f0,
  0x4129aa5560ab439941531f392ed395074173e01b3f48a2b14190a22ab9dbadd541a7c45cdd1b90fd41bdee118089e7fa41d0f1cac20a98d541e17cd0daa9db7741f09cf99c87c3b141fd4556448dae2042080c6790480ff94212824576933892421ac8ec6bc40000422245bb567e42ba42278f13f203bfc7422cc1ad62a979794230a3be35404dae42324720fdd8cf53423312a9d77172fd4232eaf761ae04a84231d77e8212439642300072d2075ee2422b4aed12bd511f42261fe7f533502542210a148742a9af4218ea763aabf9d5421146aae3c202fa4206b10cf5bfedc441fc2f86c113c5ba41f085ca947e596d41e23e22209e55b941d2eab3e0e9b31e41c25cef274e3e0041b09f4db542ead8419bee5715644c804185a85c3bb7e739416ec8691aca906c4153e0bf2cbf82e0413712d2ea3dc94d4117bbcaf048d0eb40f53a5aae66b91240d014d11f424caf40a3d9e8ba20e7494072c2663f1919b540382fd05f1298383ff000000000000040377ea35d632e434070b1b520499c4d409e7aafccab848640c400835e508ef840e400835e508ef840ff7e6ff0be3a2e4113de1bc1b60c4e412436bd8b92c4754130812869099aa0413533504380ad89413465925414e33b4129aa5560ab4399,
  0x4137e01f2deebd7c416164a2fea429414181aae5ad254eb9419ce23f9824111541b424ed715deb6741c8bfc032d8c53b41db527abe8df33841eb798e199f73ec41f96a09d7b37e6d4205c89ab8e2fea74211666149221d73421a04b746760850422245bb567e42ba42282cd022400000422e31fc6187f4304231d584b89c7ae94233f37135c6d135423528d42857e62742354a942ada8dd3423456084a14a2f342327110e9698427422fc1a166b7b7954229f4192bab6ee542241fd24182f970421d96b1425c5feb42149a56bbd24040420b247b79c67b074200e324f1d0ace641f3cf87b49a0eae41e5dc2bd01cc0c041d6a09663891a1c41c5e630ef7e0fec41b3bd5a37fc69fb41a07e718db3fffd418967dd2efed68d4171e89f286abb564156e8aaf4c43e32413a4c99e3930e25411ab6144074ea7640f78cdfece4574b40d18da86b9b90bd40a546b3a62b04224073b2aa7c7525774038d1c0be7f20ab3ff000000000000040382fd05f1298384071c21582ef075f40a0d2f76941a06740c7098e83b9e19140e8306f3d832cd84104285cb342a55f411b3470d74ae5da412e0888d190cb2a413b2959370271694143f5a5911b798441474ec82a3d1fdf41448e34fe64eaf04137e01f2deebd7c,
  0x414529d121168489416e224782bdd4fd418de5c6356f893e41a7db6aa349a7c541c03b9213a4ff1141d371db2b84c3e241e4ea7f1f2dfd8b41f47ab7166c4d7b42026e71942e45bb420eb812a1a274384217d60d08812c7b42214c11fa0a100942278f13f203bfc7422e31fc6187f43042323fc005e800004234d68ca717dc22423681f8d03a9e43423704c1b99a88db42364ddcacc82c2942347becf123247e4231d5364e945fa5422d6db3097a3b174227015d1bb3b8a84221070759ec35f94217d7dc70d26e4f420f8b592bb0cbaf4203af526c155a9941f72245701777f141e98acf04ce890341da6c48ea7d619941c986eb8483d3cc41b6f0e078e62abf41a31687667814bd418d3d97a6571882417478f684dbd5f34159f9e8811e49d8413d896a14ce2c8c411dab65ffe7aa4e40f9d456608a0c0e40d2fa34a7ec104840a6a1bf942feff9407492e48ffe093340396597f97f8aa83ff00000000000004038d1c0be7f20ab4072c2663f1919b540a25d48f138908d40ca190189992fd640ec96ace684f51d410903d749b4567a4121de2c10131932413519a6ff0ecb364144b4ad8ee74e874150da707494a6e4415684757e62453141581a7c1344175441539f406cf2ae69414529d121168489,
  0x4151ea842264e6144178eabd0e449119419822065dfaae3441b2c995f993633e41c8ed6452e0b2e941dd181c26ad092a41ee78d31721dffa41fd078aa0f75cbb420966994cd871234214900232048c59421ef8d83b9ad6724225cb5cef920a28422cc1ad62a979794231d584b89c7ae94234d68ca717dc224236f955c26000004237edb0bf91c68e423790b42d84d56c4235f4a3d25c867242335b813b33dbca4230265dbf863a6142297e0f8a0fea88422305c34a99f8ac421ad176a97055264211d67255e99a8a42065b65c4d415a141fa5a62bc72bd0741ed260df23968d441de2bf5cf58448541cd219de2ad7ff341ba221e289d66cf41a5addcfa941d11419088f3979d74c5417706e5f351d27d415d050ec88c3c0541405d702680296041204839c157b7eb40fc09a4fec7f93040d45735eb90370040a7e9554bd1160e407563163bb629664039ec474a2612633ff000000000000040396597f97f8aa84073b2aa7c75257740a3d9e8ba20e74940cd265d44199e3640f091e9a7dca85c410e40a33a479d8b4126b07a6bb5b628413c5c9906a323b3414dc562ea808a1b415a4b06b5850b3d416374993a70ef8a4167d3f6683e0d7a41678b5761ee528a4161cc3de59eb0c84151ea842264e614,
  0x415d0701666a95114183b456102f87b241a29e731d83de7541bc43d17a00cbc541d2452ee5c3fd5241e4c35db069c42f41f5289ec1545b60420398dd297348164210a855966eca12421a2d18c7d2ab4242231dca06fd6cfe422a10162e9a10704230a3be35404dae4233f37135c6d135423681f8d03a9e434237edb0bf91c68e4237ffe5043200004236b9ea40ff9bf9423453b3903a526a42312cbe42f28c5c422b69697fdb19644224a6b6a13af737421d5a350c9c73a94213a7faa62a91554208c58fe5f74a8c41fd52af5cb6482c41f043f5ab6fe9c041e0ddd3340c0e5e41d04b6a4edb61af41bd37c772ea7a3241a831d87508777b419265fe60674d3041798396052cfc01415ffa6c4486c8754141e95061a754894121ad1c3de5ee3340fe260dd91480a040d5a1ac477ad78540a91beb9bece34840762340d8769ae4403a66980c3ad1bd3ff00000000000004039ec474a261263407492e48ffe093340a546b3a62b042240d014d11f424caf40f2e42a315d447f4111e5ca15fd3dee412c02242341970a41426167b7230b1f41546c3a59b528cd41634b390fb76057416efb4778435dbd417503a949fffceb4177c1e3766588364175cc3bd7a0a089416ec215f3cd50b2415d0701666a9511,
  0x41668a1f6d382c0d418ddab6dc61cccc41ab8124e096fe9441c4577271d85d5141d99af47bc20c8141ec5004b1f5685f41fc0ceb4b86bb5c42093ced5e0294dd4214d243d3f5546a421fba4ef9d75c0f4226725478765b35422d9db2f732426d42324720fdd8cf53423528d42857e627423704c1b99a88db423790b42d84d56c4236b9ea40ff9bf94234a8dca6b000004231b565cd3f74f0422c9fb1f077c18f4225cddf475ba98b421f49f12491d00442151fcc076def39420acd97c083c4b541ffe6edd0401e8641f1c56021fa7d8341e27ba2f4dfff9041d1e36145a7cb1a41c00c18183bb85541aa8f9aa3b24b9541942963cc5d46c6417be026355b67da41616539efb6439e414361537936a6cf4122ff127f8b9a514100119e5d4d23a040d6d6d7c82b667040aa382364e731c14076d3657220f6bc403ad5336963eefb3ff0000000000000403a66980c3ad1bd407563163bb6296640a6a1bf942feff940d18da86b9b90bd40f53a5aae66b9124114c7ef1777c6274130e018c98c5f7f41471b8944b59c43415af5757ad3e0f9416af5757ad3e0f94177273cd07cce0541810a54274b27a241855695016c4ad9418666843f2e85db41832ebf228b71394179604ea1b987ae41668a1f6d382c0d,
  0x4170cccbaaecbb214195b2211bc7029a41b379c03f68785c41cc0c97ec3e50d141e12d328f592fe441f2770f46424e084201c57d6c4ddf30420f09e3cd1ea3714218d4b63db21c5a422253dbd8343980422918979b07d08e42300105a2a9867f423312a9d77172fd42354a942ada8dd342364ddcacc82c294235f4a3d25c8672423453b3903a526a4231b565cd3f74f0422d09ca0c6c0000422666d41911a2d74220407b5c87ec71421627becdfadc3c420c57522d5d32814200fb2e0e1f3ec241f305d0c801e11241e3de5b40c80da841d3497482a6a7ff41c1553fb0dd320541acb4c83c2673ad4195c6f02da1958c417e0e254be6f5a14162b3130efa4a474144bec842e1657e41243922c14dafed4100fda9ffd581b040d7f43876f9107140ab3cc45bd23c4f40777384db1770cd403b38a81c8a0a223ff0000000000000403ad5336963eefb40762340d8769ae440a7e9554bd1160e40d2fa34a7ec104840f78cdfece4574b4117bbcaf048d0eb4133ea2bf41f6fe5414c4d05caf643a84161392e2c01f31a417215a3ae353f41418070c3588d7f534189e2da614ed5ab4191960f6344b921419472df9cd8c4a04194091b895905e0419015c945fd2642418406e37c1a29c94170cccbaaecbb21,
  0x417811c0d58d1b58419e495e96d1b85141ba78c6f128d35941d28c247771b59e41e615ba5fd69eaa41f71032a1b422b042058b479c5eb10c42123e649629ac89421c471be8c0983b422432cacad2b5e1422abc62ae2605e1423076385f380d6d4232eaf761ae04a8423456084a14a2f342347becf123247e42335b813b33dbca42312cbe42f28c5c422c9fb1f077c18f422666d41911a2d74220757bd97000004216afe2f7c2f01c420d4cd800320ff44201b3066053846c41f3f65319b48c7d41e4f6ea11a55fa241d46fdaf1da713641c26bee3b79b84d41ae904ebc03e88c41973336b437aa8c418000026aa1fa084163dfba21faf9944145fb713ef5056b412556b36fc201134101d47be91d908740d8f78e5af1d6f840ac28ba6109125c4078039fb9f53e8f403b916ed68964ec3ff0000000000000403b38a81c8a0a224076d3657220f6bc40a91beb9bece34840d45735eb90370040f9d456608a0c0e411ab6144074ea76413712d2ea3dc94d4150f0d7820f4db44165664e89c618b34177712f35956cd2418660673ec8d09a4192a5ab5efcadd6419b1a23fdf3083d41a118db6711e45741a28e013440137041a10b286dc26f8a4199c19ef87abfcd418e495e96d1b851417811c0d58d1b58,
  0x418096b2037c84d541a45304de37dbd841c148c073b93e7441d78c29bb1ada8541eb3ccc14ba249c41fb9b894398d0a7420901ed586f3765421483cd39fe5c33421ec5b3d6fd8a4c42253f5db2ec0410422b279d600dac3a42301f60a4218dc54231d77e8212439642327110e96984274231d5364e945fa54230265dbf863a61422b69697fdb19644225cddf475ba98b4220407b5c87ec714216afe2f7c2f01c420da045543000004202116e7026ac8041f48b710863d27741e5b920f2b53c2441d54aff168a5b6b41c3464343845f9641b0098e059436c1419863fbf6e8c0904180d4c22b6323474164e4cdba461a24414711a3e844cf594126539b296676b0410293abf709198e40d9ded97973c31340acfb134e568751407883b6936503c8403bdfeda1d7824a3ff0000000000000403b916ed68964ec40777384db1770cd40aa382364e731c140d5a1ac477ad78540fc09a4fec7f930411dab65ffe7aa4e413a4c99e3930e254153e0bf2cbf82e04169f2233f844dbd417d7f53253bf13f418d600e64e3f92d4199b40c98477a0841a3c59388d4854141aaaf1e810c316741af6c1bad3ba9e241aff8497c2891c441aba386f944173941a3b9442ae13a334195f8e2ab0bf496418096b2037c84d5,
  0x418604ed05459a5b41aa3fa9607a122c41c5b3cc48f9456441dcb8cf958b81a241f01f6fe8d2db8141ffb17c815d5a23420bcfb41bf05b134216143855c3b6bb422001dc0afab147422557d00ea3970a422a4d7867563ae3422e139470c2b15642300072d2075ee2422fc1a166b7b795422d6db3097a3b1742297e0f8a0fea884224a6b6a13af737421f49f12491d004421627becdfadc3c420d4cd800320ff44202116e7026ac8041f4bdf73600000041e61c71427f380e41d5d21f670de13f41c3dc637ba9c86941b0986066608e7b4199509505264be341818008a2d1967e4165bcbb06cf5d3c4147fc6471720e9b41272c2ebee08ec74103391c044a434e40daa859d697bacc40adb2fd27a150d64078f3c9d1487605403c247a85fe81fa3ff0000000000000403bdfeda1d7824a4078039fb9f53e8f40ab3cc45bd23c4f40d6d6d7c82b667040fe260dd91480a041204839c157b7eb413d896a14ce2c8c4156e8aaf4c43e32416ec8691aca906c418214b17306a6484192afe3451afc5041a10f12739cc50941ab8e80449ac82341b3aeede7dc45d041b8cb2f34af3cec41bb5f1a12a213aa41ba35d826fc6e6c41b56690a19f295f41acefbb0bf70730419e9f9af08e6a89418604ed05459a5b,
  0x418c2ac7a05a4a5a41b052860c8e95ed41ca382ad3ea7f9c41e0d6f7ae29849741f2552fdd1210e4420174a720ecf268420da5a1260da9354216c071a59c8b36421fda38b4a7f619422479ffe1d9b07e42284cd985273188422ab7d100550f44422b4aed12bd511f4229f4192bab6ee54227015d1bb3b8a8422305c34a99f8ac421d5a350c9c73a942151fcc076def39420c57522d5d32814201b3066053846c41f48b710863d27741e61c71427f380e41d5ffc82200000041c428d990ee721541b0effb2e1447174199f237ab79c2134181fd8c95cc0a1f416662e0df66ff364148b77dabdb12bf4127dd4d332bcb7b4103c2fb794b082240db528f757ce15640ae4fc49e1f911b407953d9c7fb2b79403c5f5d98afcebe3ff0000000000000403c247a85fe81fa407883b6936503c840ac28ba6109125c40d7f43876f910714100119e5d4d23a04121ad1c3de5ee3341405d70268029604159f9e8811e49d84171e89f286abb564185a85c3bb7e7394197210b4fd3b85541a5e99b0bf4a44441b276ef4862579441bbb266ec93835f41c276ef4862579441c5ce0cd1aa40fe41c6a7ebdd02f5a441c47d539cb9d6a441bfb2c329b7902b41b45bccecd432e641a485004a4cd9bc418c2ac7a05a4a5a,
  0x41915f90bcfe07db41b38f4d78a01ab641ce7ee71dd1796941e2fe21e9798d4741f407ce6826126c420274fac2b9658b420e4d7abbd65312421673f88c68a82f421e4fc2bd8d49734222c3a950c52d78422569674eac06b9422699b975ca020942261fe7f533502542241fd24182f9704221070759ec35f9421ad176a97055264213a7faa62a9155420acd97c083c4b54200fb2e0e1f3ec241f3f65319b48c7d41e5b920f2b53c2441d5d21f670de13f41c428d990ee721541b10d8160000000419a443926f44ed541824a25e8fd33244166d3ac8de4847441493f94e0324e0f41286469bbbb8a6241042fca4316cacc40dbdc3a587e212b40aed0d3d9d8432e4079a3e6ba37dfc8403c90d29d2d43cd3ff0000000000000403c5f5d98afcebe4078f3c9d148760540acfb134e56875140d8f78e5af1d6f84100fda9ffd581b04122ff127f8b9a514141e95061a75489415d050ec88c3c05417478f684dbd5f3418967dd2efed68d419bee5715644c8041ab57ca326edcf141b7e97ca533e7cb41c2b5d2d1ac460441ca31c0bf24620641d05f187776bd4441d232246d8a8b8841d1db1108a5981341ce98cc0c62f5c341c67be825558b0341bb818529f4273b41aa7695fd8d515141915f90bcfe07db,
  0x4194ada961900a2041b69897709fd68841d114bd7dee62d841e49c7818c6101541f5094614ad21334202bcd04db0a02e420db3d9cb8fcaad421538eb4fc463a1421b96cb814c1b1e42206c0b6b7059494221fd4cd545938242223270a1a1b5af42210a148742a9af421d96b1425c5feb4217d7dc70d26e4f4211d67255e99a8a4208c58fe5f74a8c41ffe6edd0401e8641f305d0c801e11241e4f6ea11a55fa241d54aff168a5b6b41c3dc637ba9c86941b0effb2e144717419a443926f44ed5418263e5e000000041670cafd50646d0414992396bc5dce44128bf93c093480241047e5b375fedcb40dc445a81582d8240af35b1801850b94079e3f0dbfc30de403cb90a49bb852c3ff0000000000000403c90d29d2d43cd407953d9c7fb2b7940adb2fd27a150d640d9ded97973c3134101d47be91d908741243922c14dafed414361537936a6cf415ffa6c4486c875417706e5f351d27d418d3d97a657188241a07e718db3fffd41b09f4db542ead841be0a89c5767bcf41c8652a7154c81941d1d0d30159ecf341d76214f1c606fe41db8272fe52629541dce065d225477641dad868ccb54add41d5d9bc680eab9241ce95996f15623041c1db80497938cb41b06ef9c645b34c4194ada961900a20,
  0x4197c1f445c81dea41b92c9899abfa0841d26f6adeb2254f41e587179eb09f6441f53d3e6b33f1d642024419ec46f138420bebc44c72ea49421335e62ecf68414218035fba834252421b7191f9ba94f0421ccf7462ddb43c421be02fcd4243ec4218ea763aabf9d542149a56bbd24040420f8b592bb0cbaf42065b65c4d415a141fd52af5cb6482c41f1c56021fa7d8341e3de5b40c80da841d46fdaf1da713641c3464343845f9641b0986066608e7b4199f237ab79c21341824a25e8fd332441670cafd50646d04149adf0000000004128ed7cdc5755d94104add5eb22d83240dc8a2ff14424d140af7dffefbdf3a9407a13f854aa0cdb403cd82b446159f33ff0000000000000403cb90a49bb852c4079a3e6ba37dfc840ae4fc49e1f911b40daa859d697bacc410293abf709198e412556b36fc201134144bec842e1657e41616539efb6439e41798396052cfc01419088f3979d74c541a31687667814bd41b3bd5a37fc69fb41c25cef274e3e0041ced1114b2e290c41d75b4a80628adc41dffb7b3eba6ee641e3c0f94c64175241e5f2dc1bfd6f3e41e5d3a4c7bd065041e346df8ec7e0cf41dde2d96595688241d3f717f8555a0441c64cf90521d24b41b3aad7380e5b564197c1f445c81dea,
  0x419a5b52868371de41bb0e36159683a241d32c7da8eed6e241e5a4d1d67ded8d41f49e120442249a420119186981c22542092ae8f0624db14210a66fd98c84284213faec9ea89e974215e20f586f891f4215f95a7a88082d42144b753e55d0b9421146aae3c202fa420b247b79c67b074203af526c155a9941fa5a62bc72bd0741f043f5ab6fe9c041e27ba2f4dfff9041d3497482a6a7ff41c26bee3b79b84d41b0098e059436c14199509505264be34181fd8c95cc0a1f4166d3ac8de48474414992396bc5dce44128ed7cdc5755d94104bdb80000000040dcad3aa909926e40afa97cae063cc3407a33fd40926740403cee52e38987e03ff0000000000000403cd82b446159f34079e3f0dbfc30de40aed0d3d9d8432e40db528f757ce1564103391c044a434e4126539b296676b04145fb713ef5056b4162b3130efa4a47417be026355b67da419265fe60674d3041a5addcfa941d1141b6f0e078e62abf41c5e630ef7e0fec41d2eab3e0e9b31e41dda12ef05241bd41e50da8fbcdfbe041eb21f904c39fdc41efa7a2858ee52b41f0a9122b58ae8241ef7a9d4351eb0841ea7a4328313fbd41e3978cfdd2900c41d909d8d5f632fd41cacd54d09db08141b6b114963c2c56419a5b52868371de,
  0x419c3dde72da1a5e41bc0e2581c3600941d33834a58a502841e4f2865d9f011541f33dcb2ab75de641febb51072ecb384205bf7d16fd125a420b9fe7e85f1310420fc4b11806ef854210a3fb3d58f75e420fe681f7a3e59b420c0f407f8e4b284206b10cf5bfedc44200e324f1d0ace641f72245701777f141ed260df23968d441e0ddd3340c0e5e41d1e36145a7cb1a41c1553fb0dd320541ae904ebc03e88c419863fbf6e8c09041818008a2d1967e416662e0df66ff3641493f94e0324e0f4128bf93c09348024104add5eb22d83240dcad3aa909926e40afb80000000000407a43ffb20700eb403cfb95bb9dcc0c3ff0000000000000403cee52e38987e0407a13f854aa0cdb40af35b1801850b940dbdc3a587e212b4103c2fb794b082241272c2ebee08ec7414711a3e844cf594163dfba21faf994417e0e254be6f5a141942963cc5d46c641a831d87508777b41ba221e289d66cf41c986eb8483d3cc41d6a09663891a1c41e23e22209e55b941eac9b49f1a61fb41f1ea1e1c17f12d41f5ce0b6ade81ee41f819a0d46f314b41f819a0d46f314b41f5af0872ba3e2f41f168daabcb0f8041e8a4e5f29caab641de2eca6eefd38841cf0431a68366df41b93fee8e6309a1419c3dde72da1a5e,
  0x419d3ba015b2a02e41bc126b9a8b269d41d2915ec8bb90d841e383aaa14a29e241f142db4ff7b83c41fa823488f9173b420202518f023f5a4205ec172ad3328b42081d4caf1b846642081d4caf1b84664206036cfa3f7e0142026511ac304d3741fc2f86c113c5ba41f3cf87b49a0eae41e98acf04ce890341de2bf5cf58448541d04b6a4edb61af41c00c18183bb85541acb4c83c2673ad41973336b437aa8c4180d4c22b6323474165bcbb06cf5d3c4148b77dabdb12bf41286469bbbb8a6241047e5b375fedcb40dc8a2ff14424d140afa97cae063cc3407a43ffb20700eb403d0000000000003ff0000000000000403cfb95bb9dcc0c407a33fd4092674040af7dffefbdf3a940dc445a81582d8241042fca4316cacc4127dd4d332bcb7b4147fc6471720e9b4164e4cdba461a24418000026aa1fa084195c6f02da1958c41aa8f9aa3b24b9541bd37c772ea7a3241cd219de2ad7ff341da6c48ea7d619941e5dc2bd01cc0c041f085ca947e596d41f6d5bda99d106841fcd859d5270f0b4200a172adbab3964201765203373c904200a172adbab39641fc90eb4cc5c59741f5f02b7a2f3f5d41edc2b7eafa8d1841e17edf996ea12341d1498d3679aa2a41bb1a9cdbd5cd02419d3ba015b2a02e,
  0x419d3ba015b2a02e41bb1a9cdbd5cd0241d1498d3679aa2a41e17edf996ea12341edc2b7eafa8d1841f5f02b7a2f3f5d41fc90eb4cc5c5974200a172adbab3964201765203373c904200a172adbab39641fcd859d5270f0b41f6d5bda99d106841f085ca947e596d41e5dc2bd01cc0c041da6c48ea7d619941cd219de2ad7ff341bd37c772ea7a3241aa8f9aa3b24b954195c6f02da1958c418000026aa1fa084164e4cdba461a244147fc6471720e9b4127dd4d332bcb7b41042fca4316cacc40dc445a81582d8240af7dffefbdf3a9407a33fd40926740403cfb95bb9dcc0c3ff0000000000000403d000000000000407a43ffb20700eb40afa97cae063cc340dc8a2ff14424d141047e5b375fedcb41286469bbbb8a624148b77dabdb12bf4165bcbb06cf5d3c4180d4c22b63234741973336b437aa8c41acb4c83c2673ad41c00c18183bb85541d04b6a4edb61af41de2bf5cf58448541e98acf04ce890341f3cf87b49a0eae41fc2f86c113c5ba42026511ac304d374206036cfa3f7e0142081d4caf1b846642081d4caf1b84664205ec172ad3328b420202518f023f5a41fa823488f9173b41f142db4ff7b83c41e383aaa14a29e241d2915ec8bb90d841bc126b9a8b269d419d3ba015b2a02e,
  0x419c3dde72da1a5e41b93fee8e6309a141cf0431a68366df41de2eca6eefd38841e8a4e5f29caab641f168daabcb0f8041f5af0872ba3e2f41f819a0d46f314b41f819a0d46f314b41f5ce0b6ade81ee41f1ea1e1c17f12d41eac9b49f1a61fb41e23e22209e55b941d6a09663891a1c41c986eb8483d3cc41ba221e289d66cf41a831d87508777b41942963cc5d46c6417e0e254be6f5a14163dfba21faf994414711a3e844cf5941272c2ebee08ec74103c2fb794b082240dbdc3a587e212b40af35b1801850b9407a13f854aa0cdb403cee52e38987e03ff0000000000000403cfb95bb9dcc0c407a43ffb20700eb40afb8000000000040dcad3aa909926e4104add5eb22d8324128bf93c093480241493f94e0324e0f416662e0df66ff3641818008a2d1967e419863fbf6e8c09041ae904ebc03e88c41c1553fb0dd320541d1e36145a7cb1a41e0ddd3340c0e5e41ed260df23968d441f72245701777f14200e324f1d0ace64206b10cf5bfedc4420c0f407f8e4b28420fe681f7a3e59b4210a3fb3d58f75e420fc4b11806ef85420b9fe7e85f13104205bf7d16fd125a41febb51072ecb3841f33dcb2ab75de641e4f2865d9f011541d33834a58a502841bc0e2581c36009419c3dde72da1a5e,
  0x419a5b52868371de41b6b114963c2c5641cacd54d09db08141d909d8d5f632fd41e3978cfdd2900c41ea7a4328313fbd41ef7a9d4351eb0841f0a9122b58ae8241efa7a2858ee52b41eb21f904c39fdc41e50da8fbcdfbe041dda12ef05241bd41d2eab3e0e9b31e41c5e630ef7e0fec41b6f0e078e62abf41a5addcfa941d11419265fe60674d30417be026355b67da4162b3130efa4a474145fb713ef5056b4126539b296676b04103391c044a434e40db528f757ce15640aed0d3d9d8432e4079e3f0dbfc30de403cd82b446159f33ff0000000000000403cee52e38987e0407a33fd4092674040afa97cae063cc340dcad3aa909926e4104bdb8000000004128ed7cdc5755d9414992396bc5dce44166d3ac8de484744181fd8c95cc0a1f4199509505264be341b0098e059436c141c26bee3b79b84d41d3497482a6a7ff41e27ba2f4dfff9041f043f5ab6fe9c041fa5a62bc72bd074203af526c155a99420b247b79c67b07421146aae3c202fa42144b753e55d0b94215f95a7a88082d4215e20f586f891f4213faec9ea89e974210a66fd98c842842092ae8f0624db1420119186981c22541f49e120442249a41e5a4d1d67ded8d41d32c7da8eed6e241bb0e36159683a2419a5b52868371de,
  0x4197c1f445c81dea41b3aad7380e5b5641c64cf90521d24b41d3f717f8555a0441dde2d96595688241e346df8ec7e0cf41e5d3a4c7bd065041e5f2dc1bfd6f3e41e3c0f94c64175241dffb7b3eba6ee641d75b4a80628adc41ced1114b2e290c41c25cef274e3e0041b3bd5a37fc69fb41a31687667814bd419088f3979d74c541798396052cfc0141616539efb6439e4144bec842e1657e412556b36fc20113410293abf709198e40daa859d697bacc40ae4fc49e1f911b4079a3e6ba37dfc8403cb90a49bb852c3ff0000000000000403cd82b446159f3407a13f854aa0cdb40af7dffefbdf3a940dc8a2ff14424d14104add5eb22d8324128ed7cdc5755d94149adf00000000041670cafd50646d041824a25e8fd33244199f237ab79c21341b0986066608e7b41c3464343845f9641d46fdaf1da713641e3de5b40c80da841f1c56021fa7d8341fd52af5cb6482c42065b65c4d415a1420f8b592bb0cbaf42149a56bbd240404218ea763aabf9d5421be02fcd4243ec421ccf7462ddb43c421b7191f9ba94f04218035fba834252421335e62ecf6841420bebc44c72ea4942024419ec46f13841f53d3e6b33f1d641e587179eb09f6441d26f6adeb2254f41b92c9899abfa084197c1f445c81dea,
  0x4194ada961900a2041b06ef9c645b34c41c1db80497938cb41ce95996f15623041d5d9bc680eab9241dad868ccb54add41dce065d225477641db8272fe52629541d76214f1c606fe41d1d0d30159ecf341c8652a7154c81941be0a89c5767bcf41b09f4db542ead841a07e718db3fffd418d3d97a6571882417706e5f351d27d415ffa6c4486c875414361537936a6cf41243922c14dafed4101d47be91d908740d9ded97973c31340adb2fd27a150d6407953d9c7fb2b79403c90d29d2d43cd3ff0000000000000403cb90a49bb852c4079e3f0dbfc30de40af35b1801850b940dc445a81582d8241047e5b375fedcb4128bf93c0934802414992396bc5dce441670cafd50646d0418263e5e0000000419a443926f44ed541b0effb2e14471741c3dc637ba9c86941d54aff168a5b6b41e4f6ea11a55fa241f305d0c801e11241ffe6edd0401e864208c58fe5f74a8c4211d67255e99a8a4217d7dc70d26e4f421d96b1425c5feb42210a148742a9af42223270a1a1b5af4221fd4cd545938242206c0b6b705949421b96cb814c1b1e421538eb4fc463a1420db3d9cb8fcaad4202bcd04db0a02e41f5094614ad213341e49c7818c6101541d114bd7dee62d841b69897709fd6884194ada961900a20,
  0x41915f90bcfe07db41aa7695fd8d515141bb818529f4273b41c67be825558b0341ce98cc0c62f5c341d1db1108a5981341d232246d8a8b8841d05f187776bd4441ca31c0bf24620641c2b5d2d1ac460441b7e97ca533e7cb41ab57ca326edcf1419bee5715644c80418967dd2efed68d417478f684dbd5f3415d050ec88c3c054141e95061a754894122ff127f8b9a514100fda9ffd581b040d8f78e5af1d6f840acfb134e5687514078f3c9d1487605403c5f5d98afcebe3ff0000000000000403c90d29d2d43cd4079a3e6ba37dfc840aed0d3d9d8432e40dbdc3a587e212b41042fca4316cacc41286469bbbb8a6241493f94e0324e0f4166d3ac8de4847441824a25e8fd3324419a443926f44ed541b10d816000000041c428d990ee721541d5d21f670de13f41e5b920f2b53c2441f3f65319b48c7d4200fb2e0e1f3ec2420acd97c083c4b54213a7faa62a9155421ad176a97055264221070759ec35f942241fd24182f97042261fe7f5335025422699b975ca0209422569674eac06b94222c3a950c52d78421e4fc2bd8d4973421673f88c68a82f420e4d7abbd65312420274fac2b9658b41f407ce6826126c41e2fe21e9798d4741ce7ee71dd1796941b38f4d78a01ab641915f90bcfe07db,
  0x418c2ac7a05a4a5a41a485004a4cd9bc41b45bccecd432e641bfb2c329b7902b41c47d539cb9d6a441c6a7ebdd02f5a441c5ce0cd1aa40fe41c276ef4862579441bbb266ec93835f41b276ef4862579441a5e99b0bf4a4444197210b4fd3b8554185a85c3bb7e7394171e89f286abb564159f9e8811e49d841405d70268029604121ad1c3de5ee334100119e5d4d23a040d7f43876f9107140ac28ba6109125c407883b6936503c8403c247a85fe81fa3ff0000000000000403c5f5d98afcebe407953d9c7fb2b7940ae4fc49e1f911b40db528f757ce1564103c2fb794b08224127dd4d332bcb7b4148b77dabdb12bf416662e0df66ff364181fd8c95cc0a1f4199f237ab79c21341b0effb2e14471741c428d990ee721541d5ffc82200000041e61c71427f380e41f48b710863d2774201b3066053846c420c57522d5d328142151fcc076def39421d5a350c9c73a9422305c34a99f8ac4227015d1bb3b8a84229f4192bab6ee5422b4aed12bd511f422ab7d100550f4442284cd985273188422479ffe1d9b07e421fda38b4a7f6194216c071a59c8b36420da5a1260da935420174a720ecf26841f2552fdd1210e441e0d6f7ae29849741ca382ad3ea7f9c41b052860c8e95ed418c2ac7a05a4a5a,
  0x418604ed05459a5b419e9f9af08e6a8941acefbb0bf7073041b56690a19f295f41ba35d826fc6e6c41bb5f1a12a213aa41b8cb2f34af3cec41b3aeede7dc45d041ab8e80449ac82341a10f12739cc5094192afe3451afc50418214b17306a648416ec8691aca906c4156e8aaf4c43e32413d896a14ce2c8c41204839c157b7eb40fe260dd91480a040d6d6d7c82b667040ab3cc45bd23c4f4078039fb9f53e8f403bdfeda1d7824a3ff0000000000000403c247a85fe81fa4078f3c9d148760540adb2fd27a150d640daa859d697bacc4103391c044a434e41272c2ebee08ec74147fc6471720e9b4165bcbb06cf5d3c41818008a2d1967e4199509505264be341b0986066608e7b41c3dc637ba9c86941d5d21f670de13f41e61c71427f380e41f4bdf7360000004202116e7026ac80420d4cd800320ff4421627becdfadc3c421f49f12491d0044224a6b6a13af73742297e0f8a0fea88422d6db3097a3b17422fc1a166b7b79542300072d2075ee2422e139470c2b156422a4d7867563ae3422557d00ea3970a422001dc0afab1474216143855c3b6bb420bcfb41bf05b1341ffb17c815d5a2341f01f6fe8d2db8141dcb8cf958b81a241c5b3cc48f9456441aa3fa9607a122c418604ed05459a5b,
  0x418096b2037c84d54195f8e2ab0bf49641a3b9442ae13a3341aba386f944173941aff8497c2891c441af6c1bad3ba9e241aaaf1e810c316741a3c59388d485414199b40c98477a08418d600e64e3f92d417d7f53253bf13f4169f2233f844dbd4153e0bf2cbf82e0413a4c99e3930e25411dab65ffe7aa4e40fc09a4fec7f93040d5a1ac477ad78540aa382364e731c140777384db1770cd403b916ed68964ec3ff0000000000000403bdfeda1d7824a407883b6936503c840acfb134e56875140d9ded97973c313410293abf709198e4126539b296676b0414711a3e844cf594164e4cdba461a244180d4c22b632347419863fbf6e8c09041b0098e059436c141c3464343845f9641d54aff168a5b6b41e5b920f2b53c2441f48b710863d2774202116e7026ac80420da045543000004216afe2f7c2f01c4220407b5c87ec714225cddf475ba98b422b69697fdb19644230265dbf863a614231d5364e945fa542327110e96984274231d77e8212439642301f60a4218dc5422b279d600dac3a42253f5db2ec0410421ec5b3d6fd8a4c421483cd39fe5c33420901ed586f376541fb9b894398d0a741eb3ccc14ba249c41d78c29bb1ada8541c148c073b93e7441a45304de37dbd8418096b2037c84d5,
  0x417811c0d58d1b58418e495e96d1b8514199c19ef87abfcd41a10b286dc26f8a41a28e013440137041a118db6711e457419b1a23fdf3083d4192a5ab5efcadd6418660673ec8d09a4177712f35956cd24165664e89c618b34150f0d7820f4db4413712d2ea3dc94d411ab6144074ea7640f9d456608a0c0e40d45735eb90370040a91beb9bece3484076d3657220f6bc403b38a81c8a0a223ff0000000000000403b916ed68964ec4078039fb9f53e8f40ac28ba6109125c40d8f78e5af1d6f84101d47be91d9087412556b36fc201134145fb713ef5056b4163dfba21faf994418000026aa1fa0841973336b437aa8c41ae904ebc03e88c41c26bee3b79b84d41d46fdaf1da713641e4f6ea11a55fa241f3f65319b48c7d4201b3066053846c420d4cd800320ff44216afe2f7c2f01c4220757bd9700000422666d41911a2d7422c9fb1f077c18f42312cbe42f28c5c42335b813b33dbca42347becf123247e423456084a14a2f34232eaf761ae04a8423076385f380d6d422abc62ae2605e1422432cacad2b5e1421c471be8c0983b42123e649629ac8942058b479c5eb10c41f71032a1b422b041e615ba5fd69eaa41d28c247771b59e41ba78c6f128d359419e495e96d1b851417811c0d58d1b58,
  0x4170cccbaaecbb21418406e37c1a29c9419015c945fd26424194091b895905e0419472df9cd8c4a04191960f6344b9214189e2da614ed5ab418070c3588d7f53417215a3ae353f414161392e2c01f31a414c4d05caf643a84133ea2bf41f6fe54117bbcaf048d0eb40f78cdfece4574b40d2fa34a7ec104840a7e9554bd1160e40762340d8769ae4403ad5336963eefb3ff0000000000000403b38a81c8a0a2240777384db1770cd40ab3cc45bd23c4f40d7f43876f910714100fda9ffd581b041243922c14dafed4144bec842e1657e4162b3130efa4a47417e0e254be6f5a14195c6f02da1958c41acb4c83c2673ad41c1553fb0dd320541d3497482a6a7ff41e3de5b40c80da841f305d0c801e1124200fb2e0e1f3ec2420c57522d5d3281421627becdfadc3c4220407b5c87ec71422666d41911a2d7422d09ca0c6c00004231b565cd3f74f0423453b3903a526a4235f4a3d25c867242364ddcacc82c2942354a942ada8dd3423312a9d77172fd42300105a2a9867f422918979b07d08e422253dbd83439804218d4b63db21c5a420f09e3cd1ea3714201c57d6c4ddf3041f2770f46424e0841e12d328f592fe441cc0c97ec3e50d141b379c03f68785c4195b2211bc7029a4170cccbaaecbb21,
  0x41668a1f6d382c0d4179604ea1b987ae41832ebf228b7139418666843f2e85db41855695016c4ad941810a54274b27a24177273cd07cce05416af5757ad3e0f9415af5757ad3e0f941471b8944b59c434130e018c98c5f7f4114c7ef1777c62740f53a5aae66b91240d18da86b9b90bd40a6a1bf942feff9407563163bb62966403a66980c3ad1bd3ff0000000000000403ad5336963eefb4076d3657220f6bc40aa382364e731c140d6d6d7c82b66704100119e5d4d23a04122ff127f8b9a51414361537936a6cf41616539efb6439e417be026355b67da41942963cc5d46c641aa8f9aa3b24b9541c00c18183bb85541d1e36145a7cb1a41e27ba2f4dfff9041f1c56021fa7d8341ffe6edd0401e86420acd97c083c4b542151fcc076def39421f49f12491d0044225cddf475ba98b422c9fb1f077c18f4231b565cd3f74f04234a8dca6b000004236b9ea40ff9bf9423790b42d84d56c423704c1b99a88db423528d42857e62742324720fdd8cf53422d9db2f732426d4226725478765b35421fba4ef9d75c0f4214d243d3f5546a42093ced5e0294dd41fc0ceb4b86bb5c41ec5004b1f5685f41d99af47bc20c8141c4577271d85d5141ab8124e096fe94418ddab6dc61cccc41668a1f6d382c0d,
  0x415d0701666a9511416ec215f3cd50b24175cc3bd7a0a0894177c1e376658836417503a949fffceb416efb4778435dbd41634b390fb7605741546c3a59b528cd41426167b7230b1f412c02242341970a4111e5ca15fd3dee40f2e42a315d447f40d014d11f424caf40a546b3a62b0422407492e48ffe09334039ec474a2612633ff0000000000000403a66980c3ad1bd40762340d8769ae440a91beb9bece34840d5a1ac477ad78540fe260dd91480a04121ad1c3de5ee334141e95061a75489415ffa6c4486c87541798396052cfc01419265fe60674d3041a831d87508777b41bd37c772ea7a3241d04b6a4edb61af41e0ddd3340c0e5e41f043f5ab6fe9c041fd52af5cb6482c4208c58fe5f74a8c4213a7faa62a9155421d5a350c9c73a94224a6b6a13af737422b69697fdb196442312cbe42f28c5c423453b3903a526a4236b9ea40ff9bf94237ffe5043200004237edb0bf91c68e423681f8d03a9e434233f37135c6d1354230a3be35404dae422a10162e9a107042231dca06fd6cfe421a2d18c7d2ab424210a855966eca12420398dd2973481641f5289ec1545b6041e4c35db069c42f41d2452ee5c3fd5241bc43d17a00cbc541a29e731d83de754183b456102f87b2415d0701666a9511,
  0x4151ea842264e6144161cc3de59eb0c841678b5761ee528a4167d3f6683e0d7a416374993a70ef8a415a4b06b5850b3d414dc562ea808a1b413c5c9906a323b34126b07a6bb5b628410e40a33a479d8b40f091e9a7dca85c40cd265d44199e3640a3d9e8ba20e7494073b2aa7c75257740396597f97f8aa83ff00000000000004039ec474a261263407563163bb6296640a7e9554bd1160e40d45735eb90370040fc09a4fec7f93041204839c157b7eb41405d7026802960415d050ec88c3c05417706e5f351d27d419088f3979d74c541a5addcfa941d1141ba221e289d66cf41cd219de2ad7ff341de2bf5cf58448541ed260df23968d441fa5a62bc72bd0742065b65c4d415a14211d67255e99a8a421ad176a9705526422305c34a99f8ac42297e0f8a0fea884230265dbf863a6142335b813b33dbca4235f4a3d25c8672423790b42d84d56c4237edb0bf91c68e4236f955c26000004234d68ca717dc224231d584b89c7ae9422cc1ad62a979794225cb5cef920a28421ef8d83b9ad6724214900232048c59420966994cd8712341fd078aa0f75cbb41ee78d31721dffa41dd181c26ad092a41c8ed6452e0b2e941b2c995f993633e419822065dfaae344178eabd0e4491194151ea842264e614,
  0x414529d12116848941539f406cf2ae6941581a7c13441754415684757e6245314150da707494a6e44144b4ad8ee74e87413519a6ff0ecb364121de2c10131932410903d749b4567a40ec96ace684f51d40ca190189992fd640a25d48f138908d4072c2663f1919b54038d1c0be7f20ab3ff000000000000040396597f97f8aa8407492e48ffe093340a6a1bf942feff940d2fa34a7ec104840f9d456608a0c0e411dab65ffe7aa4e413d896a14ce2c8c4159f9e8811e49d8417478f684dbd5f3418d3d97a657188241a31687667814bd41b6f0e078e62abf41c986eb8483d3cc41da6c48ea7d619941e98acf04ce890341f72245701777f14203af526c155a99420f8b592bb0cbaf4217d7dc70d26e4f4221070759ec35f94227015d1bb3b8a8422d6db3097a3b174231d5364e945fa542347becf123247e42364ddcacc82c29423704c1b99a88db423681f8d03a9e434234d68ca717dc2242323fc005e80000422e31fc6187f43042278f13f203bfc742214c11fa0a10094217d60d08812c7b420eb812a1a2743842026e71942e45bb41f47ab7166c4d7b41e4ea7f1f2dfd8b41d371db2b84c3e241c03b9213a4ff1141a7db6aa349a7c5418de5c6356f893e416e224782bdd4fd414529d121168489,
  0x4137e01f2deebd7c41448e34fe64eaf041474ec82a3d1fdf4143f5a5911b7984413b295937027169412e0888d190cb2a411b3470d74ae5da4104285cb342a55f40e8306f3d832cd840c7098e83b9e19140a0d2f76941a0674071c21582ef075f40382fd05f1298383ff00000000000004038d1c0be7f20ab4073b2aa7c75257740a546b3a62b042240d18da86b9b90bd40f78cdfece4574b411ab6144074ea76413a4c99e3930e254156e8aaf4c43e324171e89f286abb56418967dd2efed68d41a07e718db3fffd41b3bd5a37fc69fb41c5e630ef7e0fec41d6a09663891a1c41e5dc2bd01cc0c041f3cf87b49a0eae4200e324f1d0ace6420b247b79c67b0742149a56bbd24040421d96b1425c5feb42241fd24182f9704229f4192bab6ee5422fc1a166b7b79542327110e9698427423456084a14a2f342354a942ada8dd3423528d42857e6274233f37135c6d1354231d584b89c7ae9422e31fc6187f43042282cd022400000422245bb567e42ba421a04b7467608504211666149221d734205c89ab8e2fea741f96a09d7b37e6d41eb798e199f73ec41db527abe8df33841c8bfc032d8c53b41b424ed715deb67419ce23f982411154181aae5ad254eb9416164a2fea429414137e01f2deebd7c,
  0x4129aa5560ab4399413465925414e33b413533504380ad894130812869099aa0412436bd8b92c4754113de1bc1b60c4e40ff7e6ff0be3a2e40e400835e508ef840c400835e508ef8409e7aafccab84864070b1b520499c4d40377ea35d632e433ff000000000000040382fd05f1298384072c2663f1919b540a3d9e8ba20e74940d014d11f424caf40f53a5aae66b9124117bbcaf048d0eb413712d2ea3dc94d4153e0bf2cbf82e0416ec8691aca906c4185a85c3bb7e739419bee5715644c8041b09f4db542ead841c25cef274e3e0041d2eab3e0e9b31e41e23e22209e55b941f085ca947e596d41fc2f86c113c5ba4206b10cf5bfedc4421146aae3c202fa4218ea763aabf9d542210a148742a9af42261fe7f5335025422b4aed12bd511f42300072d2075ee24231d77e821243964232eaf761ae04a8423312a9d77172fd42324720fdd8cf534230a3be35404dae422cc1ad62a9797942278f13f203bfc7422245bb567e42ba421ac8ec6bc40000421282457693389242080c6790480ff941fd4556448dae2041f09cf99c87c3b141e17cd0daa9db7741d0f1cac20a98d541bdee118089e7fa41a7c45cdd1b90fd4190a22ab9dbadd54173e01b3f48a2b141531f392ed395074129aa5560ab4399,
  0x411a37a5acca04f041231962f91c562f41220c093cfda2ad41194a0c3bd80763410b880cee55e16140f7ad6a8d3be87140e015ebe29bc4f840c106dec9c8b4b7409b3e3142dababf406f228170f9f9ff4036bcd594fa2a993ff000000000000040377ea35d632e434071c21582ef075f40a25d48f138908d40cd265d44199e3640f2e42a315d447f4114c7ef1777c6274133ea2bf41f6fe54150f0d7820f4db44169f2233f844dbd418214b17306a6484197210b4fd3b85541ab57ca326edcf141be0a89c5767bcf41ced1114b2e290c41dda12ef05241bd41eac9b49f1a61fb41f6d5bda99d106842026511ac304d37420c0f407f8e4b2842144b753e55d0b9421be02fcd4243ec42223270a1a1b5af422699b975ca0209422ab7d100550f44422e139470c2b15642301f60a4218dc5423076385f380d6d42300105a2a9867f422d9db2f732426d422a10162e9a10704225cb5cef920a2842214c11fa0a1009421a04b74676085042128245769338924208d96192e0000041ff63b56c2e408241f296344844b03841e48b115d59647441d511ea6cdef77141c3e7c077d9160c41b126addeae152f419a97267d3071ed41822d38cb03454f416539cadd8d380e4143f7a1a757ce77411a37a5acca04f0,
  0x41095de9f5e905d34110ccb31592b7ee410c92cd683f00144101cba719e102ce40f0f39ee623ba4a40d8fdf050a55f0e40bc4c3d350894f94097f67e1debc514406cc16423e7b94b4035e8add236a58e3ff00000000000004036bcd594fa2a994070b1b520499c4d40a0d2f76941a06740ca190189992fd640f091e9a7dca85c4111e5ca15fd3dee4130e018c98c5f7f414c4d05caf643a84165664e89c618b3417d7f53253bf13f4192afe3451afc5041a5e99b0bf4a44441b7e97ca533e7cb41c8652a7154c81941d75b4a80628adc41e50da8fbcdfbe041f1ea1e1c17f12d41fcd859d5270f0b4206036cfa3f7e01420fe681f7a3e59b4215f95a7a88082d421ccf7462ddb43c4221fd4cd5459382422569674eac06b942284cd985273188422a4d7867563ae3422b279d600dac3a422abc62ae2605e1422918979b07d08e4226725478765b3542231dca06fd6cfe421ef8d83b9ad6724217d60d08812c7b4211666149221d7342080c6790480ff941ff63b56c2e408241f34a3073f0000041e63e3a05573f9541d7f43e7be7ce5241c7f43e7be7ce5241b613f7c234f8fb41a291fbcf0f9351418c1effeb4757134172c93d2711c9364155732e76f7d3cb4133bd526c8c64eb41095de9f5e905d3,
  0x40f7281aeff0550940fb9ac53d488b1d40f4ddf9f219620f40e6be364e03ef6f40d291d0f8c4581840b6d07e05a76af04094aa71b81fa5c9406a4000000000004034ffffffffffff3ff00000000000004035e8add236a58e406f228170f9f9ff409e7aafccab848640c7098e83b9e19140ec96ace684f51d410e40a33a479d8b412c02242341970a41471b8944b59c434161392e2c01f31a4177712f35956cd2418d600e64e3f92d41a10f12739cc50941b276ef4862579441c2b5d2d1ac460441d1d0d30159ecf341dffb7b3eba6ee641eb21f904c39fdc41f5ce0b6ade81ee4200a172adbab39642081d4caf1b84664210a3fb3d58f75e4215e20f586f891f421b7191f9ba94f042206c0b6b7059494222c3a950c52d78422479ffe1d9b07e422557d00ea3970a42253f5db2ec0410422432cacad2b5e1422253dbd8343980421fba4ef9d75c0f421a2d18c7d2ab424214900232048c59420eb812a1a274384205c89ab8e2fea741fd4556448dae2041f296344844b03841e63e3a05573f9541d8fda77400000041ca3d896cffffff41b999b1c800000041a708974a2f29774192ec65f5276b13417c0130a6053f6d41624ae533b38bd141446eaf67b8daae4122672e28db076940f7281aeff05509,
  0x40e3d93ba917245140e50834c0fa519c40dbd2a29821d81440c9fdf4eb72363640b1af71aff7f260409161e61cb0517a40679e38d26d4fc140340000000000003ff00000000000004035000000000000406cc16423e7b94b409b3e3142dababf40c400835e508ef840e8306f3d832cd8410903d749b4567a4126b07a6bb5b62841426167b7230b1f415af5757ad3e0f9417215a3ae353f41418660673ec8d09a4199b40c98477a0841ab8e80449ac82341bbb266ec93835f41ca31c0bf24620641d76214f1c606fe41e3c0f94c64175241efa7a2858ee52b41f819a0d46f314b4201765203373c9042081d4caf1b8466420fc4b11806ef854213faec9ea89e974218035fba834252421b96cb814c1b1e421e4fc2bd8d4973421fda38b4a7f619422001dc0afab147421ec5b3d6fd8a4c421c471be8c0983b4218d4b63db21c5a4214d243d3f5546a4210a855966eca12420966994cd8712342026e71942e45bb41f96a09d7b37e6d41f09cf99c87c3b141e48b115d59647441d7f43e7be7ce5241ca3d896d00000041bae1611200000041a999b1c800000041967f760104640941821032c719fd7b416a233e78d1b2aa4150b3afe14ae3d54132423ab3d635cd41101a4863bfa67c40e3d93ba9172451,
  0x40cfc1f90e8b6d4e40cd71e37491a57540c0b194c1ade80c40a9fdf4eb723636408c4be9198cb7004064dbe0ef39fb5f4032e4fa41f10c9a3ff00000000000004034000000000000406a4000000000004097f67e1debc51440c106dec9c8b4b740e400835e508ef84104285cb342a55f4121de2c10131932413c5c9906a323b341546c3a59b528cd416af5757ad3e0f9418070c3588d7f534192a5ab5efcadd641a3c59388d4854141b3aeede7dc45d041c276ef4862579441d05f187776bd4441db8272fe52629541e5f2dc1bfd6f3e41f0a9122b58ae8241f819a0d46f314b4200a172adbab3964205ec172ad3328b420b9fe7e85f13104210a66fd98c8428421335e62ecf6841421538eb4fc463a1421673f88c68a82f4216c071a59c8b364216143855c3b6bb421483cd39fe5c3342123e649629ac89420f09e3cd1ea37142093ced5e0294dd420398dd2973481641fd078aa0f75cbb41f47ab7166c4d7b41eb798e199f73ec41e17cd0daa9db7741d511ea6cdef77141c7f43e7be7ce5241b999b1c800000041a999b1c80000004197d075c0000000418473dfa3d5723741700e66064ffdc24156ba791b25a67d413c6dc3e184eb4b411e6e61d665045640fa4a41f138e60440cfc1f90e8b6d4e,
  0x40b787f91d92e1a040b2b35e4e1ca01740a1aba34e7fa8a6408602a2c04eb34c4061f8a92ba3193e4031a9dc8f6df1033ff00000000000004032e4fa41f10c9a40679e38d26d4fc14094aa71b81fa5c940bc4c3d350894f940e015ebe29bc4f840ff7e6ff0be3a2e411b3470d74ae5da413519a6ff0ecb36414dc562ea808a1b41634b390fb760574177273cd07cce054189e2da614ed5ab419b1a23fdf3083d41aaaf1e810c316741b8cb2f34af3cec41c5ce0cd1aa40fe41d232246d8a8b8841dce065d225477641e5d3a4c7bd065041ef7a9d4351eb0841f5af0872ba3e2f41fc90eb4cc5c597420202518f023f5a4205bf7d16fd125a42092ae8f0624db1420bebc44c72ea49420db3d9cb8fcaad420e4d7abbd65312420da5a1260da935420bcfb41bf05b13420901ed586f376542058b479c5eb10c4201c57d6c4ddf3041fc0ceb4b86bb5c41f5289ec1545b6041ee78d31721dffa41e4ea7f1f2dfd8b41db527abe8df33841d0f1cac20a98d541c3e7c077d9160c41b613f7c234f8fb41a708974a2f297741967f7601046409418473dfa3d5723741712cd740000000415a615d592ff4db41424629852f489b4126618e1e2c06b1410777f4e4418bfc40e3de9432fe6a1840b787f91d92e1a0,
  0x409ff8f7ba2fa8ac40952ca094c3ddb94080019beb49954b405de7f65eb09b3240304760c95db3103ff00000000000004031a9dc8f6df1034064dbe0ef39fb5f409161e61cb0517a40b6d07e05a76af040d8fdf050a55f0e40f7ad6a8d3be8714113de1bc1b60c4e412e0888d190cb2a4144b4ad8ee74e87415a4b06b5850b3d416efb4778435dbd41810a54274b27a24191960f6344b92141a118db6711e45741af6c1bad3ba9e241bb5f1a12a213aa41c6a7ebdd02f5a441d1db1108a5981341dad868ccb54add41e346df8ec7e0cf41ea7a4328313fbd41f168daabcb0f8041f5f02b7a2f3f5d41fa823488f9173b41febb51072ecb38420119186981c22542024419ec46f1384202bcd04db0a02e420274fac2b9658b420174a720ecf26841ffb17c815d5a2341fb9b894398d0a741f71032a1b422b041f2770f46424e0841ec5004b1f5685f41e4c35db069c42f41dd181c26ad092a41d371db2b84c3e241c8bfc032d8c53b41bdee118089e7fa41b126addeae152f41a291fbcf0f93514192ec65f5276b1341821032c719fd7b41700e66064ffdc2415a615d592ff4db4143d41800000000412ae6117b7b659a411022c7cdd709bc40f094ddec24a0a940cb86d0c16506a4409ff8f7ba2fa8ac,
  0x4083a3fc558920c84074cfc8a5c43b1040579923933d8a49402d64d51e0db1c53ff000000000000040304760c95db3104061f8a92ba3193e408c4be9198cb70040b1af71aff7f26040d291d0f8c4581840f0f39ee623ba4a410b880cee55e161412436bd8b92c475413b2959370271694150da707494a6e4416374993a70ef8a417503a949fffceb41855695016c4ad9419472df9cd8c4a041a28e013440137041aff8497c2891c441ba35d826fc6e6c41c47d539cb9d6a441ce98cc0c62f5c341d5d9bc680eab9241dde2d96595688241e3978cfdd2900c41e8a4e5f29caab641edc2b7eafa8d1841f142db4ff7b83c41f33dcb2ab75de641f49e120442249a41f53d3e6b33f1d641f5094614ad213341f407ce6826126c41f2552fdd1210e441f01f6fe8d2db8141eb3ccc14ba249c41e615ba5fd69eaa41e12d328f592fe441d99af47bc20c8141d2452ee5c3fd5241c8ed6452e0b2e941c03b9213a4ff1141b424ed715deb6741a7c45cdd1b90fd419a97267d3071ed418c1effeb475713417c0130a6053f6d416a233e78d1b2aa4156ba791b25a67d41424629852f489b412ae6117b7b659a4111df640000000040f50389ebd0424b40d52bb83fc2e06540b13c12294680e94083a3fc558920c8,
  0x406561c709864bb34050fe1e036d703c4029b0c25315c2cd3ff0000000000000402d64d51e0db1c5405de7f65eb09b32408602a2c04eb34c40a9fdf4eb72363640c9fdf4eb72363640e6be364e03ef6f4101cba719e102ce41194a0c3bd807634130812869099aa04143f5a5911b7984415684757e6245314167d3f6683e0d7a4177c1e376658836418666843f2e85db4194091b895905e041a10b286dc26f8a41aba386f944173941b56690a19f295f41bfb2c329b7902b41c67be825558b0341ce95996f15623041d3f717f8555a0441d909d8d5f632fd41de2eca6eefd38841e17edf996ea12341e383aaa14a29e241e4f2865d9f011541e5a4d1d67ded8d41e587179eb09f6441e49c7818c6101541e2fe21e9798d4741e0d6f7ae29849741dcb8cf958b81a241d78c29bb1ada8541d28c247771b59e41cc0c97ec3e50d141c4577271d85d5141bc43d17a00cbc541b2c995f993633e41a7db6aa349a7c5419ce23f982411154190a22ab9dbadd541822d38cb03454f4172c93d2711c93641624ae533b38bd14150b3afe14ae3d5413c6dc3e184eb4b4126618e1e2c06b1411022c7cdd709bc40f50389ebd0424b40d839000000000040b7ef2d0a67c5fc40931de1c3db1e44406561c709864bb3,
  0x4043f9989320b7f740252a7fa9d2f8e93ff00000000000004029b0c25315c2cd40579923933d8a494080019beb49954b40a1aba34e7fa8a640c0b194c1ade80c40dbd2a29821d81440f4ddf9f219620f410c92cd683f001441220c093cfda2ad413533504380ad8941474ec82a3d1fdf41581a7c1344175441678b5761ee528a4175cc3bd7a0a08941832ebf228b7139419015c945fd26424199c19ef87abfcd41a3b9442ae13a3341acefbb0bf7073041b45bccecd432e641bb818529f4273b41c1db80497938cb41c64cf90521d24b41cacd54d09db08141cf0431a68366df41d1498d3679aa2a41d2915ec8bb90d841d33834a58a502841d32c7da8eed6e241d26f6adeb2254f41d114bd7dee62d841ce7ee71dd1796941ca382ad3ea7f9c41c5b3cc48f9456441c148c073b93e7441ba78c6f128d35941b379c03f68785c41ab8124e096fe9441a29e731d83de75419822065dfaae34418de5c6356f893e4181aae5ad254eb94173e01b3f48a2b1416539cadd8d380e4155732e76f7d3cb41446eaf67b8daae4132423ab3d635cd411e6e61d6650456410777f4e4418bfc40f094ddec24a0a940d52bb83fc2e06540b7ef2d0a67c5fc409734000000000040723085b5f14de84043f9989320b7f7,
  0x401e3307cc56cf5b3ff000000000000040252a7fa9d2f8e94050fe1e036d703c4074cfc8a5c43b1040952ca094c3ddb940b2b35e4e1ca01740cd71e37491a57540e50834c0fa519c40fb9ac53d488b1d4110ccb31592b7ee41231962f91c562f413465925414e33b41448e34fe64eaf041539f406cf2ae694161cc3de59eb0c8416ec215f3cd50b24179604ea1b987ae418406e37c1a29c9418e495e96d1b8514195f8e2ab0bf496419e9f9af08e6a8941a485004a4cd9bc41aa7695fd8d515141b06ef9c645b34c41b3aad7380e5b5641b6b114963c2c5641b93fee8e6309a141bb1a9cdbd5cd0241bc126b9a8b269d41bc0e2581c3600941bb0e36159683a241b92c9899abfa0841b69897709fd68841b38f4d78a01ab641b052860c8e95ed41aa3fa9607a122c41a45304de37dbd8419e495e96d1b8514195b2211bc7029a418ddab6dc61cccc4183b456102f87b24178eabd0e449119416e224782bdd4fd416164a2fea4294141531f392ed395074143f7a1a757ce774133bd526c8c64eb4122672e28db076941101a4863bfa67c40fa4a41f138e60440e3de9432fe6a1840cb86d0c16506a440b13c12294680e940931de1c3db1e4440723085b5f14de8404c000000000000401e3307cc56cf5b,
  0x3ff0000000000000401e3307cc56cf5b4043f9989320b7f7406561c709864bb34083a3fc558920c8409ff8f7ba2fa8ac40b787f91d92e1a040cfc1f90e8b6d4e40e3d93ba917245140f7281aeff0550941095de9f5e905d3411a37a5acca04f04129aa5560ab43994137e01f2deebd7c414529d1211684894151ea842264e614415d0701666a951141668a1f6d382c0d4170cccbaaecbb21417811c0d58d1b58418096b2037c84d5418604ed05459a5b418c2ac7a05a4a5a41915f90bcfe07db4194ada961900a204197c1f445c81dea419a5b52868371de419c3dde72da1a5e419d3ba015b2a02e419d3ba015b2a02e419c3dde72da1a5e419a5b52868371de4197c1f445c81dea4194ada961900a2041915f90bcfe07db418c2ac7a05a4a5a418604ed05459a5b418096b2037c84d5417811c0d58d1b584170cccbaaecbb2141668a1f6d382c0d415d0701666a95114151ea842264e614414529d1211684894137e01f2deebd7c4129aa5560ab4399411a37a5acca04f041095de9f5e905d340f7281aeff0550940e3d93ba917245140cfc1f90e8b6d4e40b787f91d92e1a0409ff8f7ba2fa8ac4083a3fc558920c8406561c709864bb34043f9989320b7f7401e3307cc56cf5b3ff0000000000000]

end SF
